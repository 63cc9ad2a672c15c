import Verif.Cost
import Verif.HistGen
import Mathlib.Algebra.BigOperators.Group.Finset.Basic

/-!
# `getCostMatrix`, `smoothPolarMatrix`, `padPolarMatrix`, `getConicKernel`
(local_planner/src/nodes/planner_functions.cpp:128-207, 260-325)

Model only.  The outer `Option` of a result is `none` for an out-of-bounds access; a matrix entry
`none` is NaN.
-/

namespace Avoidance

section
variable {K : Type*} [Field K] [LinearOrder K] [IsStrictOrderedRing K]

/-- Write one entry of a row of length `N`. -/
def writeRow (N : ℕ) (row : ℕ → Option K) (i : ℕ) (v : Option K) : Option (ℕ → Option K) :=
  if i < N then some (Function.update row i v) else none

/-- NaN-propagating `base + gradient * i`. -/
def nanLin (base gradient : Option K) (i : ℕ) : Option K :=
  base.bind fun b => gradient.map fun g => b + g * (i : K)

/-- NaN-propagating `(b - a) / n`. -/
def nanGrad (a b : Option K) (n : ℕ) : Option K :=
  a.bind fun a => b.map fun b => (b - a) / (n : K)

/-- The inner loops `for (i = 1; i < len; i++) m(last + i) = m(last) + gradient * i`,
planner_functions.cpp:181-184 and 194-197. -/
def fillSegment (N last len : ℕ) (gradient : Option K) (row : ℕ → Option K) :
    Option (ℕ → Option K) :=
  loopM (fun r i => writeRow N r (last + i) (nanLin (r last) gradient i)) row
    (List.range' 1 (len - 1))

/-- The values `z_index = 0, step, 2*step, ...` below `N` (`step` is positive). -/
def sampleIndices (N step : ℕ) : List ℕ := (List.range ((N + step - 1) / step)).map (· * step)

/-- One row of `cost_matrix` (or of `distance_matrix`, which is treated identically):
planner_functions.cpp:166-199.  `cost z` is what `costFunction` returns for column `z`;
the state of the middle loop is (row, last_index). -/
def fillRow (N step : ℕ) (cost : ℕ → Option K) : Option (ℕ → Option K) :=
  (loopM (fun r z => writeRow N r z (cost z)) (fun _ => none) (sampleIndices N step)).bind fun row =>
  if step > 1 then
    (loopM (fun (s : (ℕ → Option K) × ℕ) z =>
        (fillSegment N s.2 step (nanGrad (s.1 s.2) (s.1 z) step) s.1).map fun r => (r, z))
      (row, 0) (sampleIndices N step).tail).bind fun s =>
    let clamped_z_scale := N - s.2
    fillSegment N s.2 clamped_z_scale (nanGrad (s.1 s.2) (s.1 0) clamped_z_scale) s.1
  else some row

/-- `getConicKernel`, planner_functions.cpp:285-293. -/
def conicKernel (radius : ℕ) : ℕ → K :=
  let raw : ℕ → K := fun row => max 0 (1 + (radius : K) - |((row : K) - (radius : K))|)
  let maxCoeff := ((List.range (radius * 2 + 1)).map raw).foldl max (raw 0)
  fun row => raw row * (1 / maxCoeff)

/-- Assignment to a block of a matrix: `m.block(r0, c0, h, w) = src`. -/
def setBlock (m : ℕ → ℕ → K) (r0 c0 h w : ℕ) (src : ℕ → ℕ → K) : ℕ → ℕ → K := fun i j =>
  if r0 ≤ i ∧ i < r0 + h ∧ c0 ≤ j ∧ j < c0 + w then src (i - r0) (j - c0) else m i j

/-- Reading a block: `m.block(r0, c0, h, w)`. -/
def getBlock (m : ℕ → ℕ → K) (r0 c0 : ℕ) : ℕ → ℕ → K := fun i j => m (r0 + i) (c0 + j)

/-- `.colwise().reverse()` of a block of height `h`. -/
def flipRows (h : ℕ) (m : ℕ → ℕ → K) : ℕ → ℕ → K := fun i j => m (h - 1 - i) j

/-- `padPolarMatrix`, planner_functions.cpp:295-325.  A block that does not fit into the source
matrix (`n > rows`), or source and destination blocks that overlap (`n > cols`), is undefined
(`none`). -/
def padPolarMatrix (m : ℕ → ℕ → K) (rows cols n : ℕ) : Option (ℕ → ℕ → K) :=
  if n ≤ rows ∧ n ≤ cols then
    let p : ℕ → ℕ → K := fun _ _ => 0
    let p := setBlock p n n rows cols m
    let middle := cols / 2
    let p := setBlock p 0 n n middle (flipRows n (getBlock m 0 middle))
    let p := setBlock p 0 (n + middle) n middle (flipRows n (getBlock m 0 0))
    let p := setBlock p (rows + n) n n middle (flipRows n (getBlock m (rows - n) middle))
    let p := setBlock p (rows + n) (n + middle) n middle (flipRows n (getBlock m (rows - n) 0))
    let p := setBlock p 0 0 (rows + 2 * n) n (getBlock p 0 (cols + 2 * n - 2 * n))
    let p := setBlock p 0 (n + cols) (rows + 2 * n) n (getBlock p 0 n)
    some p
  else none

/-- `smoothPolarMatrix`, planner_functions.cpp:260-283.  Each column (then each row) is copied to a
temporary before it is overwritten, so the loops are pointwise. -/
def smoothPolarMatrix (m : ℕ → ℕ → K) (rows cols n : ℕ) : Option (ℕ → ℕ → K) :=
  (padPolarMatrix m rows cols n).map fun p =>
    let kernel : ℕ → K := conicKernel n
    let p' : ℕ → ℕ → K := fun i j =>
      if n ≤ i ∧ i < n + rows ∧ j < cols + 2 * n then
        ∑ a ∈ Finset.range (2 * n + 1), p (i - n + a) j * kernel a
      else p i j
    fun i j =>
      if i < rows ∧ j < cols then
        ∑ b ∈ Finset.range (2 * n + 1), p' (i + n) (j + b) * kernel b
      else m i j

end

noncomputable section

/-- `is_obstacle_facing_goal`, planner_functions.cpp:140-158. -/
def isObstacleFacingGoal (h : Histogram ℝ) (goal position : V3 ℝ) (max_range min_range : ℝ) :
    Option Bool :=
  let goal_polar := cartesianToPolarHistogram goal position
  loopM (fun (b : Bool) (ji : ℕ × ℕ) =>
      let tmp : PolarPoint ℝ := ⟨goal_polar.e + (((ji.1 : ℤ) - 2 : ℤ) : ℝ) * (ALPHA_RES : ℕ),
        goal_polar.z + (((ji.2 : ℤ) - 5 : ℤ) : ℝ) * (ALPHA_RES : ℕ), 0⟩
      let idx := polarToHistogramIndex tmp ALPHA_RES
      (h.getDist idx.2 idx.1).map fun d => if d > min_range ∧ d < max_range then b || true else b)
    false (cellList (List.range 5) 11)

/-- `step_size` of a row, planner_functions.cpp:164-165 (`std::round` of a positive number). -/
def stepSize (e_index : ℕ) : ℕ :=
  ⌊1 / Real.cos ((histogramIndexToPolar (K := ℝ) e_index 0 ALPHA_RES 1).e * degToRad) + 1 / 2⌋.toNat

/-- The matrices before smoothing: (distance cost, other cost), planner_functions.cpp:160-200. -/
def rawCost (h : Histogram ℝ) (goal position velocity : V3 ℝ) (params : CostParams)
    (closest_pt : V3 ℝ) (facing : Bool) (e_index z_index : ℕ) : Option (ℝ × ℝ) :=
  (h.getDist e_index z_index).bind fun obstacle_distance =>
    costFunction (histogramIndexToPolar (K := ℝ) e_index z_index ALPHA_RES 1) obstacle_distance goal
      position velocity params closest_pt facing

/-- All rows of one matrix, planner_functions.cpp:160-200. -/
def fillMatrix (rows N : ℕ) (step : ℕ → ℕ) (cost : ℕ → ℕ → Option ℝ) :
    Option (ℕ → ℕ → Option ℝ) :=
  loopM (fun m e => (fillRow N (step e) (cost e)).map fun r => Function.update m e r)
    (fun _ _ => none) (List.range rows)

open Classical in
/-- A matrix without NaN entries (NaN anywhere is the outcome `none`). -/
def withoutNaN (rows cols : ℕ) (m : ℕ → ℕ → Option ℝ) : Option (ℕ → ℕ → ℝ) :=
  if ∀ e < rows, ∀ z < cols, (m e z).isSome then some fun e z => (m e z).getD 0 else none

/-- `getCostMatrix`, planner_functions.cpp:128-207, without the debug image.  `none` also stands for
NaN costs (vehicle exactly at the goal).  `smoothing_margin_degrees` is not negative. -/
def getCostMatrix (h : Histogram ℝ) (goal position velocity : V3 ℝ) (params : CostParams)
    (smoothing_margin_degrees : ℝ) (closest_pt : V3 ℝ) (max_sensor_range min_sensor_range : ℝ) :
    Option (ℕ → ℕ → ℝ) :=
  (isObstacleFacingGoal h goal position max_sensor_range min_sensor_range).bind fun facing =>
  let cost := rawCost h goal position velocity params closest_pt facing
  (fillMatrix GRID_LENGTH_E GRID_LENGTH_Z stepSize fun e z => (cost e z).map Prod.snd).bind
    fun cost_matrix =>
  (fillMatrix GRID_LENGTH_E GRID_LENGTH_Z stepSize fun e z => (cost e z).map Prod.fst).bind
    fun distance_matrix =>
  (withoutNaN GRID_LENGTH_E GRID_LENGTH_Z cost_matrix).bind fun cost_matrix =>
  (withoutNaN GRID_LENGTH_E GRID_LENGTH_Z distance_matrix).bind fun distance_matrix =>
  let smooth_radius := ⌈smoothing_margin_degrees / (ALPHA_RES : ℕ)⌉.toNat
  (smoothPolarMatrix distance_matrix GRID_LENGTH_E GRID_LENGTH_Z smooth_radius).map
    fun distance_matrix => fun e z => cost_matrix e z + distance_matrix e z

end
end Avoidance
