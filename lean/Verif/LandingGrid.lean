import Mathlib.Algebra.Order.Floor.Ring
import Mathlib.Algebra.Order.Field.Basic
import Verif.HistGen

/-!
# The safe landing planner: `safe_landing_planner/include/safe_landing_planner/grid.hpp` and
# `safe_landing_planner/src/nodes/safe_landing_planner.cpp`

Model only.  Floats are elements of an ordered field `K`; `none` as a coordinate is NaN (infinite
coordinates never reach the planner: `pcl::removeNaNFromPointCloud`, safe_landing_planner_node.cpp:226,
drops every non-finite point).  `none` as the result of a function is undefined behaviour: an Eigen
access outside the matrix, or an operation on matrices of different sizes.
-/

namespace Avoidance
namespace Landing

set_option linter.unusedSectionVars false

variable {K : Type*} [Field K] [LinearOrder K] [IsStrictOrderedRing K] [FloorRing K]

/-- `class Grid`, grid.hpp:8-78.  The four matrices are `n × n`; their entries outside that range are
never observed, because every access goes through `ifIn`. -/
structure Grid (K : Type*) where
  grid_size : K
  cell_size : K
  n : ℕ
  min_x : K
  min_y : K
  max_x : K
  max_y : K
  mean : ℤ → ℤ → K
  variance : ℤ → ℤ → K
  counter : ℤ → ℤ → ℤ
  land : ℤ → ℤ → ℤ

/-- Indices of an existing entry. -/
def InGrid (n : ℕ) (i j : ℤ) : Prop := 0 ≤ i ∧ i < n ∧ 0 ≤ j ∧ j < n

instance (n : ℕ) (i j : ℤ) : Decidable (InGrid n i j) := by unfold InGrid; infer_instance

/-- `m(i, j) = v`. -/
def write {A : Type*} (m : ℤ → ℤ → A) (i j : ℤ) (v : A) : ℤ → ℤ → A :=
  fun a b => if a = i ∧ b = j then v else m a b

/-- `reset`, grid.hpp:15-20. -/
def Grid.reset (g : Grid K) : Grid K :=
  { g with mean := fun _ _ => 0, variance := fun _ _ => 0, counter := fun _ _ => 0, land := fun _ _ => 0 }

/-- `resize`, grid.hpp:22-31.  (A negative size would be an Eigen assertion; `toNat` makes it 0.) -/
def Grid.resize (g : Grid K) (grid_size cell_size : K) : Grid K :=
  ({ g with grid_size := grid_size, cell_size := cell_size, n := ⌈grid_size / cell_size⌉.toNat } : Grid K).reset

/-- The constructor, grid.hpp:10-12 (the corners are zero-initialised nowhere; any value). -/
def Grid.new (grid_size cell_size : K) : Grid K :=
  Grid.resize ⟨grid_size, cell_size, 0, 0, 0, 0, 0, fun _ _ => 0, fun _ _ => 0, fun _ _ => 0, fun _ _ => 0⟩
    grid_size cell_size

/-- `setFilterLimits`, grid.hpp:49-54. -/
def Grid.setFilterLimits (g : Grid K) (x y : K) : Grid K :=
  { g with min_x := x - g.grid_size / 2, min_y := y - g.grid_size / 2,
           max_x := x + g.grid_size / 2, max_y := y + g.grid_size / 2 }

/-- `combine`, grid.hpp:61-64.  Adding Eigen matrices of different sizes is undefined. -/
def Grid.combine (g prev : Grid K) (alpha : K) : Option (Grid K) :=
  if g.n = prev.n then
    some { g with mean := fun i j => alpha * prev.mean i j + (1 - alpha) * g.mean i j,
                  variance := fun i j => alpha * prev.variance i j + (1 - alpha) * g.variance i j }
  else none

/-- `isInsideGrid`, safe_landing_planner.cpp:140-144. -/
def Grid.isInsideGrid (g : Grid K) (x y : K) : Prop := x < g.max_x ∧ x > g.min_x ∧ y < g.max_y ∧ y > g.min_y

instance (g : Grid K) (x y : K) : Decidable (g.isInsideGrid x y) := by unfold Grid.isInsideGrid; infer_instance

/-- `computeGridIndexes`, safe_landing_planner.cpp:146-152. -/
def Grid.computeGridIndexes (g : Grid K) (x y : K) : ℤ × ℤ :=
  (⌊(x - g.min_x) / g.cell_size⌋, ⌊(y - g.min_y) / g.cell_size⌋)

/-- `computeOnlineMeanVariance`, safe_landing_planner.cpp:154-172.  (`seq` is at least 1 at the only
call, so the NaN of line 156 is always overwritten: the model has the branch `seq > 0` only.) -/
def computeOnlineMeanVariance (prev_mean prev_variance new_value seq : K) : K × K :=
  let mean := (prev_mean * (seq - 1) + new_value) / seq
  let delta := new_value - prev_mean
  let delta2 := new_value - mean
  let prev_M2 := if seq - 1 ≥ 0 then prev_variance * (seq - 1) else 0
  (mean, (prev_M2 + delta * delta2) / seq)

/-- A point of the cloud; `none` is NaN. -/
abbrev CloudPoint (K : Type*) := V3 (Option K)

/-- The loop body of `processPointcloud`, safe_landing_planner.cpp:33-51 (the cloud for the
visualisation is left out). -/
def addPoint (g : Grid K) (p : CloudPoint K) : Option (Grid K) :=
  match p.x, p.y, p.z with
  | some x, some y, some z =>
    if g.isInsideGrid x y then
      let ix := g.computeGridIndexes x y
      if InGrid g.n ix.1 ix.2 then
        let c := g.counter ix.1 ix.2 + 1
        let mv := computeOnlineMeanVariance (g.mean ix.1 ix.2) (g.variance ix.1 ix.2) z (c : K)
        some { g with counter := write g.counter ix.1 ix.2 c, mean := write g.mean ix.1 ix.2 mv.1,
                      variance := write g.variance ix.1 ix.2 mv.2 }
      else none
    else some g
  | _, _, _ => some g

/-- The parameters and state of `SafeLandingPlanner`, safe_landing_planner.hpp:60-81. -/
structure Planner (K : Type*) where
  grid : Grid K
  previous : Grid K
  pos : V3 K
  n_points_thr : K
  std_dev_thr : K
  mean_diff_thr : K
  alpha : K
  /-- `grid_size_`, `cell_size_`: the configured values -/
  cfg_grid_size : K
  cfg_cell_size : K
  n_lines_padding : ℤ
  smoothing_size : ℤ
  max_n_mean_diff_cells : ℤ
  min_n_land_cells : ℤ
  size_update : Bool
  grid_seq : ℤ
  pos_index : ℤ × ℤ

/-- The loop of `processPointcloud`, safe_landing_planner.cpp:32-51. -/
def binCloud (g : Grid K) (cloud : List (CloudPoint K)) : Option (Grid K) := loopM addPoint g cloud

/-- `processPointcloud`, safe_landing_planner.cpp:24-52. -/
def processPointcloud (s : Planner K) (cloud : List (CloudPoint K)) : Option (Planner K) :=
  let g := (s.previous.setFilterLimits s.pos.x s.pos.y).reset
  (binCloud g cloud).map fun g' => { s with grid := g', previous := s.grid, grid_seq := s.grid_seq + 1 }

/-- `SLPGridMsg`, as far as it is used: the layout of all four arrays is `rows × cols`, row major. -/
structure GridMsg (K : Type*) where
  seq : ℤ
  grid_size : K
  cell_size : K
  rows : ℕ
  cols : ℕ
  mean : List K
  std_dev : List K
  counter : List ℤ
  land : List ℤ
  pos_index : ℤ × ℤ

/-- Row-major list of the indices of an `r × c` array: the order of the nested loops
safe_landing_planner.cpp:63-64, safe_landing_planner_node.cpp:190-191, waypoint_generator_node.cpp:117-118. -/
def indices (r c : ℕ) : List (ℕ × ℕ) := (List.range r).flatMap fun i => (List.range c).map fun j => (i, j)

/-- One assignment of the loop safe_landing_planner.cpp:65-69. -/
def rawCell (m : GridMsg K) (g : Grid K) (ij : ℕ × ℕ) : Option (Grid K) :=
  if InGrid g.n ij.1 ij.2 then
    match m.mean[m.cols * ij.1 + ij.2]?, m.std_dev[m.cols * ij.1 + ij.2]?, m.counter[m.cols * ij.1 + ij.2]? with
    | some a, some b, some c =>
      some { g with mean := write g.mean ij.1 ij.2 a, variance := write g.variance ij.1 ij.2 (b ^ 2),
                    counter := write g.counter ij.1 ij.2 c }
    | _, _, _ => none
  else none

/-- `processRawGrid`, safe_landing_planner.cpp:54-72. -/
def processRawGrid (s : Planner K) (m : GridMsg K) : Option (Planner K) :=
  let g := s.previous.reset.setFilterLimits s.pos.x s.pos.y
  let g := if g.grid_size ≠ m.grid_size ∨ g.cell_size ≠ m.cell_size then g.resize m.grid_size m.cell_size else g
  (loopM (rawCell m) g (indices m.rows m.cols)).map fun g' =>
    { s with grid := g', previous := s.grid, grid_seq := m.seq }

/-- `sqrtf(v) > t`, safe_landing_planner.cpp:81, without the square root (equivalent for `v ≥ 0`, lemma
`sqrtGt_iff`; for `v < 0` the root is NaN and the comparison false). -/
def sqrtGt (v t : K) : Prop := 0 ≤ v ∧ (t < 0 ∨ t * t < v)

instance (v t : K) : Decidable (sqrtGt v t) := by unfold sqrtGt; infer_instance

/-- The loop safe_landing_planner.cpp:78-87. -/
def cellLand (s : Planner K) (g : Grid K) (i j : ℤ) : ℤ :=
  if (g.counter i j : K) < s.n_points_thr ∨ sqrtGt (g.variance i j) s.std_dev_thr then 0 else 1

/-- A matrix copied into the middle of a zero matrix with `p` more lines on each side,
safe_landing_planner.cpp:92-103. -/
def padded {A : Type*} [Zero A] (n : ℕ) (p : ℤ) (m : ℤ → ℤ → A) : ℤ → ℤ → A :=
  fun i j => if InGrid n (i - p) (j - p) then m (i - p) (j - p) else 0

/-- The offsets `-p, ..., p` of the loops safe_landing_planner.cpp:107-108. -/
def offsets (p : ℤ) : List (ℤ × ℤ) :=
  (List.range (2 * p + 1).toNat).flatMap fun (k : ℕ) => (List.range (2 * p + 1).toNat).map fun (t : ℕ) => ((k : ℤ) - p, (t : ℤ) - p)

/-- `land_accumulator(i, j)` after the loops 105-118 (`i`, `j` are indices of the padded matrix). -/
def landCount (p : ℤ) (land_padded : ℤ → ℤ → ℤ) (i j : ℤ) : ℤ :=
  ((offsets p).map fun kt => land_padded (i + kt.1) (j + kt.2)).sum

/-- `mean_accumulator(i, j)` after the loops 105-118. -/
def meanDiffCount (p : ℤ) (mean_padded : ℤ → ℤ → K) (thr : K) (i j : ℤ) : ℤ :=
  ((offsets p).map fun kt =>
    if |mean_padded i j - mean_padded (i + kt.1) (j + kt.2)| > thr then (1 : ℤ) else 0).sum

/-- The two `select`s on `land_accumulator`, safe_landing_planner.cpp:122-123. -/
def landSelect (min_n a : ℤ) : ℤ :=
  let b := if a ≤ min_n then 0 else a
  if b > min_n then 1 else b

/-- The two `select`s on `mean_accumulator`, safe_landing_planner.cpp:127-128. -/
def meanSelect (max_n a : ℤ) : ℤ :=
  let b := if a ≤ max_n then 1 else a
  if b > max_n then 0 else b

/-- The smoothed value of cell `(i, j)` (of the unpadded matrix), safe_landing_planner.cpp:91-135. -/
def smoothedLand (s : Planner K) (g : Grid K) (i j : ℤ) : ℤ :=
  let p := s.n_lines_padding
  meanSelect s.max_n_mean_diff_cells (meanDiffCount p (padded g.n p g.mean) s.mean_diff_thr (i + p) (j + p)) *
  landSelect s.min_n_land_cells (landCount p (padded g.n p (cellLand s g)) (i + p) (j + p))

/-- `isLandingPossible`, safe_landing_planner.cpp:74-137. -/
def isLandingPossible (s : Planner K) : Planner K :=
  { s with grid := { s.grid with land := if s.n_lines_padding > 0 then smoothedLand s s.grid else cellLand s s.grid },
           pos_index := s.grid.computeGridIndexes s.pos.x s.pos.y }

/-- The first block of `runSafeLandingPlanner`, safe_landing_planner.cpp:7-12. -/
def applySizeUpdate (s : Planner K) : Planner K :=
  if s.size_update then
    { s with grid := s.grid.resize s.cfg_grid_size s.cfg_cell_size,
             previous := s.previous.resize s.cfg_grid_size s.cfg_cell_size,
             n_lines_padding := s.smoothing_size, size_update := false }
  else s

/-- The data of one run: a cloud, or (with `play_rosbag_`) a recorded grid. -/
inductive Input (K : Type*) where
  | cloud (c : List (CloudPoint K))
  | raw (m : GridMsg K)

/-- `runSafeLandingPlanner`, safe_landing_planner.cpp:6-22. -/
def run (s : Planner K) (inp : Input K) : Option (Planner K) :=
  let s := applySizeUpdate s
  (match inp with
    | .cloud c => processPointcloud s c
    | .raw m => processRawGrid s m).bind fun s' =>
  (s'.grid.combine s'.previous s'.alpha).map fun g => isLandingPossible { s' with grid := g }

/-- `dynamicReconfigureSetParams`, safe_landing_planner.cpp:175-193. -/
def reconfigure (s : Planner K) (n_points std_dev mean_diff grid_size cell_size alpha : K)
    (smoothing max_diff min_land : ℤ) : Planner K :=
  { s with n_points_thr := n_points, std_dev_thr := std_dev, smoothing_size := smoothing,
           mean_diff_thr := mean_diff, max_n_mean_diff_cells := max_diff, cfg_grid_size := grid_size,
           cfg_cell_size := cell_size, alpha := alpha, min_n_land_cells := min_land,
           size_update := decide (s.grid.grid_size ≠ grid_size ∨ s.grid.cell_size ≠ cell_size ∨
             s.n_lines_padding ≠ smoothing) }

/-- The initial planner, safe_landing_planner.hpp:60-81. -/
def plannerInit : Planner K :=
  ⟨Grid.new 10 1, Grid.new 10 1, ⟨0, 0, 0⟩, 1, 1 / 10, 3 / 10, 8 / 10, 10, 1, 1, 1, 2, 9, false, 0, (-1, -1)⟩

/-- `publishSerialGrid`, safe_landing_planner_node.cpp:137-206: the *previous* grid with the *current*
position index (`std_dev` holds the roots; the root is a parameter). -/
def publishSerialGrid (sqrt : K → K) (s : Planner K) (seq : ℤ) : GridMsg K :=
  let g := s.previous
  { seq := seq, grid_size := g.grid_size, cell_size := g.cell_size, rows := g.n, cols := g.n,
    mean := (indices g.n g.n).map fun ij => g.mean ij.1 ij.2,
    std_dev := (indices g.n g.n).map fun ij => sqrt (g.variance ij.1 ij.2),
    counter := (indices g.n g.n).map fun ij => g.counter ij.1 ij.2,
    land := (indices g.n g.n).map fun ij => g.land ij.1 ij.2, pos_index := s.pos_index }

end Landing
end Avoidance
