import Verif.Polar
import Mathlib.Analysis.Real.Sqrt
import Mathlib.Algebra.Order.Floor.Ring
import Mathlib.Algebra.Order.Floor.Semiring
import Mathlib.Analysis.SpecialFunctions.Trigonometric.Basic

/-!
# Model: the cells of the global planner (global_planner/src/library/cell.cpp, cell.h)

Simplifications:
* indices are `ℤ` (the code uses `int`: overflow is not modelled);
* coordinates range over an ordered field `K` (ℝ where a square root or an angle occurs), not over `double`;
* the cell size `CELL_SCALE` is a parameter `sc`. In the code it is a `static` variable of a header, so every translation
  unit has its own copy and the reconfiguration (global_planner_node.cpp 189-191) changes only the copy of the node's
  translation unit; the library always computes with 1.0.
-/

namespace Avoidance
namespace Global

/-- A cell: three indices. cell.h 15-50, `tpl_`; comparison by indices: cell.h 52-57. -/
structure Cell where
  /-- `xIndex()`, cell.cpp 11 -/
  x : ℤ
  /-- `yIndex()`, cell.cpp 12 -/
  y : ℤ
  /-- `zIndex()`, cell.cpp 13 -/
  z : ℤ
deriving DecidableEq, Repr, Inhabited

/-- `operator+`, cell.h 59-63. -/
def Cell.add (a b : Cell) : Cell := ⟨a.x + b.x, a.y + b.y, a.z + b.z⟩

/-- `operator-`, cell.h 64-68. -/
def Cell.sub (a b : Cell) : Cell := ⟨a.x - b.x, a.y - b.y, a.z - b.z⟩

section
variable {K : Type*} [Field K] [LinearOrder K] [IsStrictOrderedRing K] [FloorRing K]

/-- `Cell(x, y, z)` of coordinates: cell.cpp 7 and 9. -/
def cellOf (sc : K) (p : V3 K) : Cell := ⟨⌊p.x / sc⌋, ⌊p.y / sc⌋, ⌊p.z / sc⌋⟩

/-- `xPos()`, `yPos()`, `zPos()` on one axis: cell.cpp 15-17. -/
def pos (sc : K) (i : ℤ) : K := sc * ((i : K) + 1 / 2)

/-- `toPoint`, cell.cpp 19-25. -/
def Cell.toPoint (sc : K) (c : Cell) : V3 K := ⟨pos sc c.x, pos sc c.y, pos sc c.z⟩

/-- `manhattanDist`, cell.cpp 28-30. -/
def Cell.manhattan (sc : K) (c : Cell) (p : V3 K) : K := |pos sc c.x - p.x| + |pos sc c.y - p.y| + |pos sc c.z - p.z|

/-- The literal of cell.cpp 45. -/
def diagLit : K := 141421356237 / 100000000000

/-- `diagDistance2D`, cell.cpp 42-47. (`abs` of a `double`: `<math.h>` and `<cmath>` are included, so the overload for
`double` is used.) -/
def Cell.diag2D (sc : K) (a b : Cell) : K :=
  (|pos sc a.x - pos sc b.x| + |pos sc a.y - pos sc b.y|) +
    (diagLit - 2) * min |pos sc a.x - pos sc b.x| |pos sc a.y - pos sc b.y|

/-- `diagDistance3D`, cell.cpp 51. -/
def Cell.diag3D (sc : K) (a b : Cell) : K := a.diag2D sc b + |pos sc a.z - pos sc b.z|

/-- `GoalCell`: cell.h 74-97 (`is_temporary_` included). -/
structure GoalCell (K : Type*) where
  cell : Cell
  radius : K
  temporary : Bool
deriving DecidableEq

/-- `withinPlanRadius`, cell.h 83-85. -/
def GoalCell.withinPlan (sc : K) (g : GoalCell K) (c : Cell) : Prop := g.cell.manhattan sc (c.toPoint sc) < g.radius / 2

/-- `withinPositionRadius`, cell.h 87-90. -/
def GoalCell.withinPosition (sc : K) (g : GoalCell K) (p : V3 K) : Prop := g.cell.manhattan sc p < g.radius

instance (sc : K) (g : GoalCell K) (c : Cell) : Decidable (g.withinPlan sc c) := by unfold GoalCell.withinPlan; infer_instance
instance (sc : K) (g : GoalCell K) (p : V3 K) : Decidable (g.withinPosition sc p) := by
  unfold GoalCell.withinPosition; infer_instance

end

/-- `distance2D`, cell.cpp 34. -/
noncomputable def Cell.dist2D (sc : ℝ) (a b : Cell) : ℝ :=
  Real.sqrt ((pos sc a.x - pos sc b.x) ^ 2 + (pos sc a.y - pos sc b.y) ^ 2)

/-- `distance3D`, cell.cpp 36-38. -/
noncomputable def Cell.dist3D (sc : ℝ) (a b : Cell) : ℝ :=
  Real.sqrt ((pos sc a.x - pos sc b.x) ^ 2 + (pos sc a.y - pos sc b.y) ^ 2 + (pos sc a.z - pos sc b.z) ^ 2)

/-- `getDiagonalNeighbors`, cell.cpp 86-91. -/
def Cell.diagonalNeighbors (c : Cell) : List Cell :=
  [⟨c.x + 1, c.y + 1, c.z⟩, ⟨c.x - 1, c.y + 1, c.z⟩, ⟨c.x + 1, c.y - 1, c.z⟩, ⟨c.x - 1, c.y - 1, c.z⟩]

/-- `getNeighbors`, cell.cpp 93-104. -/
def Cell.neighbors (c : Cell) : List Cell :=
  [⟨c.x + 1, c.y, c.z⟩, ⟨c.x - 1, c.y, c.z⟩, ⟨c.x, c.y + 1, c.z⟩, ⟨c.x, c.y - 1, c.z⟩, ⟨c.x, c.y, c.z + 1⟩, ⟨c.x, c.y, c.z - 1⟩,
   ⟨c.x + 1, c.y + 1, c.z⟩, ⟨c.x - 1, c.y + 1, c.z⟩, ⟨c.x + 1, c.y - 1, c.z⟩, ⟨c.x - 1, c.y - 1, c.z⟩]

/-- Conversion of a `double` to `int`: truncation towards zero. -/
noncomputable def truncR (a : ℝ) : ℤ := if 0 ≤ a then ⌊a⌋ else ⌈a⌉

/-- `getNeighborFromYaw`, cell.cpp 59-63. -/
noncomputable def Cell.neighborFromYaw (sc : ℝ) (c : Cell) (yaw : ℝ) : Cell :=
  cellOf sc ⟨pos sc c.x + (truncR (2 * sc * Real.cos yaw) : ℝ), pos sc c.y + (truncR (2 * sc * Real.sin yaw) : ℝ), pos sc c.z⟩

/-- The smallest natural number whose square is at least `n`. -/
def ceilSqrt (n : ℕ) : ℕ := if Nat.sqrt n * Nat.sqrt n = n then Nat.sqrt n else Nat.sqrt n + 1

/-- The lambda `ceilDistance`, cell.cpp 68-71. `none`: the square root of a negative number is a NaN whose conversion to
`int` is undefined. -/
def ceilDistance (radius x y : ℤ) : Option ℤ :=
  let d := radius * radius - x * x - y * y
  if 0 ≤ d then some (ceilSqrt d.toNat : ℤ) else none

/-- The integers from `a` to `b` in order (`for (i = a; i <= b; i++)`). -/
def intRange (a b : ℤ) : List ℤ := (List.range (b + 1 - a).toNat).map fun (k : ℕ) => a + (k : ℤ)

/-- The inner loops of `getFlowNeighbors` for one `x`: cell.cpp 73-79. -/
def flowColumn (c : Cell) (radius x : ℤ) : Option (List Cell) :=
  match ceilDistance radius x 0 with
  | none => none
  | some yr => ((intRange (-yr) yr).mapM fun y =>
      (ceilDistance radius x y).map fun zr => (intRange (-zr) zr).map fun z => (⟨c.x + x, c.y + y, c.z + z⟩ : Cell)).map List.flatten

/-- `getFlowNeighbors`, cell.cpp 66-82. -/
def Cell.flowNeighbors (c : Cell) (radius : ℤ) : Option (List Cell) :=
  ((intRange (-radius) radius).mapM (flowColumn c radius)).map List.flatten

end Global
end Avoidance
