import Verif.Slp
import Mathlib.Analysis.SpecialFunctions.Pow.Real

/-!
# Model: what the landing planner shows
(safe_landing_planner/src/nodes/safe_landing_planner_visualization.cpp, waypoint_generator_node.cpp 183-237, safe_landing_planner.cpp 44-48)

Model only. Left out: stamps, frames, transparency and the fixed orientation of the markers. `none` as a hue: NaN.
-/

namespace Avoidance
namespace Landing

noncomputable section

/-- A colour: `std::tuple<float, float, float>`, or the fields of `marker.color`. -/
@[ext] structure Rgb where
  r : ℝ
  g : ℝ
  b : ℝ

/-- The colour of cells that are out of range. -/
def Rgb.black : Rgb := ⟨0, 0, 0⟩

/-- `fmod`: the remainder has the sign of `x`. -/
def fmod (x m : ℝ) : ℝ := if 0 ≤ x then x - m * (⌊x / m⌋ : ℝ) else x - m * (⌈x / m⌉ : ℝ)

open Classical in
/-- The sectors of `HSVtoRGB`, safe_landing_planner_visualization.cpp 91-119, with `fHPrime = hp`. -/
def sector (hp c x : ℝ) : Rgb :=
  if 0 ≤ hp ∧ hp < 1 then ⟨c, x, 0⟩
  else if 1 ≤ hp ∧ hp < 2 then ⟨x, c, 0⟩
  else if 2 ≤ hp ∧ hp < 3 then ⟨0, c, x⟩
  else if 3 ≤ hp ∧ hp < 4 then ⟨0, x, c⟩
  else if 4 ≤ hp ∧ hp < 5 then ⟨x, 0, c⟩
  else if 5 ≤ hp ∧ hp < 6 then ⟨c, 0, x⟩
  else ⟨0, 0, 0⟩

/-- `HSVtoRGB`, safe_landing_planner_visualization.cpp 84-126. With a hue of NaN no comparison holds. -/
def hsvToRgb (h : Option ℝ) (s v : ℝ) : Rgb :=
  let c := v * s
  let m := v - c
  let rgb : Rgb := match h with
    | none => ⟨0, 0, 0⟩
    | some h => sector (fmod (h / 60) 6) c (c * (1 - |fmod (fmod (h / 60) 6) 2 - 1|))
  ⟨rgb.r + m, rgb.g + m, rgb.b + m⟩

/-- `360 * (x - lo) / (hi - lo)`, safe_landing_planner_visualization.cpp 65-67, 163-165; a division by zero gives NaN or an infinity, and `fmod` of an infinity is NaN. -/
def hueOf (x lo hi : ℝ) : Option ℝ := if hi - lo = 0 then none else some (360 * (x - lo) / (hi - lo))

open Classical in
/-- The colour of a cell in `publishMeanStdDev`, safe_landing_planner_visualization.cpp 65-76; the root of a negative number is NaN. -/
def stdDevColor (thr var : ℝ) : Rgb :=
  let rgb := hsvToRgb (if var < 0 then none else hueOf (Real.sqrt var) 0 thr) 1 1
  if 0 ≤ var ∧ thr < Real.sqrt var then .black else rgb

/-- The colour of a cell in `publishCounter`, safe_landing_planner_visualization.cpp 152-155, 163-167. -/
def counterColor (thr : ℝ) (count : ℤ) : Rgb := hsvToRgb (hueOf (count : ℝ) thr 400) 1 1

/-- What differs between the markers. -/
structure CellMarker where
  id : ℕ
  x : ℝ
  y : ℝ
  z : ℝ
  /-- `scale.x`, `scale.y` -/
  width : ℝ
  /-- `scale.z` -/
  height : ℝ
  color : Rgb

/-- The loops over all cells: safe_landing_planner_visualization.cpp 59-81, 157-172, 199-222: the marker is changed and pushed, then its id is increased. -/
def cellMarkers (g : Grid ℝ) (z height : ℕ → ℕ → ℝ) (color : ℕ → ℕ → Rgb) : List CellMarker :=
  ((indices g.n g.n).foldl (fun (acc : List CellMarker × ℕ) ij =>
    (acc.1 ++ [⟨acc.2, (ij.1 : ℝ) * g.cell_size + g.min_x + g.cell_size / 2, (ij.2 : ℝ) * g.cell_size + g.min_y + g.cell_size / 2, z ij.1 ij.2, g.cell_size,
      height ij.1 ij.2, color ij.1 ij.2⟩], acc.2 + 1)) ([], 0)).1

/-- `publishMeanStdDev`, safe_landing_planner_visualization.cpp 28-83. -/
def meanStdDevMarkers (g : Grid ℝ) (thr : ℝ) : List CellMarker :=
  cellMarkers g (fun i j => g.mean i j) (fun _ _ => 1 / 10) (fun i j => stdDevColor thr (g.variance i j))

/-- `publishCounter`, safe_landing_planner_visualization.cpp 128-174. -/
def counterMarkers (g : Grid ℝ) (thr : ℝ) : List CellMarker :=
  cellMarkers g (fun _ _ => 0) (fun _ _ => 1 / 10) (fun i j => counterColor thr (g.counter i j))

open Classical in
/-- `publishGrid`, safe_landing_planner_visualization.cpp 176-224 (`offset` is half the number of rows, rounded down). -/
def gridMarkers (g : Grid ℝ) (smoothing : ℤ) : List CellMarker :=
  let offset : ℝ := ((g.n / 2 : ℕ) : ℝ)
  let s : ℝ := (smoothing : ℝ)
  cellMarkers g (fun _ _ => 0)
    (fun i j => if offset - s ≤ (i : ℝ) ∧ (i : ℝ) < offset + s ∧ offset - s ≤ (j : ℝ) ∧ (j : ℝ) < offset + s then 8 / 10 else 1 / 10)
    (fun i j => if g.land i j ≠ 0 then ⟨0, 1, 0⟩ else ⟨1, 0, 0⟩)

/-- The points of the cloud `grid_pointcloud`, safe_landing_planner.cpp 32-50: those that are counted, with the number of their cell. -/
def binnedCloud (g : Grid ℝ) (cfgGrid cfgCell : ℝ) (cloud : List (V3 ℝ)) : List (V3 ℝ × ℝ) :=
  cloud.filterMap fun p => if g.isInsideGrid p.x p.y then
      some (p, ((g.computeGridIndexes p.x p.y).1 : ℝ) * (cfgGrid / cfgCell) + ((g.computeGridIndexes p.x p.y).2 : ℝ))
    else none

/-! ## The path flown -/

/-- The poses of the node (`current_pose_`, `previous_pose_`), the number of the next segment (`path_length_`) and the segments published: id, from, to. -/
structure PathSt (P : Type) where
  cur : P
  prev : P
  next : ℕ
  shown : List (ℕ × P × P)

/-- `positionCallback` (safe_landing_planner_node.cpp 46-50) and `publishPaths` (safe_landing_planner_visualization.cpp 226-245; called with the two poses, safe_landing_planner_node.cpp 109-110). -/
inductive PathEvent (P : Type)
  | pose (p : P)
  | cycle

def pathStep {P : Type} (s : PathSt P) : PathEvent P → PathSt P
  | .pose p => { s with prev := s.cur, cur := p }
  | .cycle => { s with next := s.next + 1, shown := s.shown ++ [(s.next, s.prev, s.cur)] }

/-! ## The area for landing -/

/-- `kernel`, waypoint_generator_node.cpp 208-212: the mask with its middle at the hard-coded cell 20. -/
def kernelAt (w : Slp ℝ) (k l : ℤ) : ℤ :=
  let c : ℤ := 20 - w.smoothing_land_cell
  if c ≤ k ∧ k < c + w.mask_n ∧ c ≤ l ∧ l < c + w.mask_n then w.mask (k - c) (l - c) else 0

/-- One marker of `landingAreaVisualization`, waypoint_generator_node.cpp 220-232: position and whether it is green (`result` is the product of the decisions and the
kernel). -/
def areaMarker (w : Slp ℝ) (k l : ℤ) : (ℝ × ℝ) × Bool :=
  ((w.grid.min_x + w.grid.cell_size * (k : ℝ), w.grid.min_y + w.grid.cell_size * (l : ℝ)), decide (w.result k l * kernelAt w k l ≠ 0))

/-- `landingAreaVisualization`, waypoint_generator_node.cpp 183-237: `none` is an access outside a matrix. -/
def areaMarkers (w : Slp ℝ) [Decidable (visualisationInRange w)] : Option (List ((ℝ × ℝ) × Bool)) :=
  if visualisationInRange w then
    let s : ℤ := w.smoothing_land_cell
    let o : ℤ := ((w.grid.n / 2 : ℕ) : ℤ)
    some ((indices (2 * w.smoothing_land_cell + 1) (2 * w.smoothing_land_cell + 1)).map fun ij => areaMarker w (o - s + ij.1) (o - s + ij.2))
  else none

end

end Landing
end Avoidance
