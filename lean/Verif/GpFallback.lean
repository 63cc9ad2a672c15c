import Verif.GpNode
import Verif.GpSearchMore

/-!
# Model: the search on cells and the last resort (search_tools.h 203-227 and 265-353, global_planner.cpp 78-111)

`findPathOld` is the same loop as `findSmoothPath` (`GpSearch`) on cells instead of nodes: the same queue, the same closed set and
the same relaxation. The differences are in the callbacks, which are the fields of `oldProblem`, and in three places:
* `num_iter++` comes before the goal test: the number of iterations is only printed, and whether a popped cell is still
  examined depends on the count before, as in `GpSearch`;
* the walk back compares cells (`walker != s`), not pointers: `walkBackCell` below, proved equal in `GpFallbackProps`;
* the result is only whether `t` was reached: `seen.find(t)`, which holds exactly after the `break`.
-/

namespace Avoidance
namespace Global

section
variable {K : Type*} [Field K] [LinearOrder K] [IsStrictOrderedRing K] [FloorRing K]

/-- The parameters used by `findPathOld`: global_planner.h 76-92. -/
structure OldCfg (K : Type*) where
  minAltitude : ℤ
  maxAltitude : ℤ
  maxCellRisk : K
  riskFactor : K
  up : K
  down : K
  overestimate : K

/-- `getOpenNeighbors`, global_planner.cpp 78-111. -/
def openNeighbors (C : OldCfg K) (c : Cell) (is3D : Bool) : List (Cell × K) :=
  [(⟨c.x + 1, c.y, c.z⟩, 1), (⟨c.x + 1, c.y - 1, c.z⟩, 141 / 100), (⟨c.x + 1, c.y + 1, c.z⟩, 141 / 100), (⟨c.x - 1, c.y, c.z⟩, 1),
   (⟨c.x - 1, c.y - 1, c.z⟩, 141 / 100), (⟨c.x - 1, c.y + 1, c.z⟩, 141 / 100), (⟨c.x, c.y - 1, c.z⟩, 1), (⟨c.x, c.y + 1, c.z⟩, 1)] ++
  (if is3D = true ∧ c.z < C.maxAltitude then [(⟨c.x, c.y, c.z + 1⟩, C.up)] else []) ++
  (if is3D = true ∧ C.minAltitude < c.z then [(⟨c.x, c.y, c.z - 1⟩, C.down)] else [])

/-- `risk > risk_factor_ * max_cell_risk_ && v != t`: search_tools.h 305-308 (false for a NaN risk). -/
def oldSkips (C : OldCfg K) (risk : Cell → Option K) (t v : Cell) : Bool :=
  match risk v with
  | none => false
  | some r => decide (C.riskFactor * C.maxCellRisk < C.riskFactor * r) && decide (v ≠ t)

/-- `edge_cost + risk` of lines 303-309 (the sum `d + edge_cost + risk` is rounded differently in `double`). -/
def oldCost (C : OldCfg K) (risk : Cell → Option K) (is3D : Bool) (u v : Cell) : Option K :=
  match (openNeighbors C u is3D).find? (fun p => decide (p.1 = v)), risk v with
  | some p, some r => some (p.2 + C.riskFactor * r)
  | _, _ => none

/-- The heuristic of search_tools.h 316-327. -/
def oldHeur (C : OldCfg K) (sc : K) (t v : Cell) : K :=
  C.overestimate * (v.diag2D sc t + C.up * ((max 0 (t.z - v.z) : ℤ) : K) + ((max 0 (v.z - t.z) : ℤ) : K))

/-- The search of `findPathOld` as an instance of the generic search. -/
def oldProblem (sc : K) (C : OldCfg K) (risk : Cell → Option K) (is3D : Bool) (t : Cell) (pick : List ((Cell × Bool) × K) → ℕ) :
    Problem Cell Cell K where
  key := id
  nbrs u := (openNeighbors C u is3D).map Prod.fst
  legal v := !oldSkips C risk t v
  cost := oldCost C risk is3D
  heur _ v := oldHeur C sc t v
  goal u := decide (u = t)
  pick := pick

/-- `while (walker != s)`, search_tools.h 338-342: from `t` back to `s`, `s` excluded. -/
def walkBackCell (par : Cell → Option (Ref Cell)) (s : Cell) : ℕ → Cell → Option (List Cell)
  | 0, _ => none
  | n + 1, w => if w = s then some [] else match par w with
    | none => none
    | some p => (walkBackCell par s n p.1).map (w :: ·)

/-- `findPathOld`, search_tools.h 265-353, called with an empty `path`. Outer `none`: out of fuel; inner `none`: no path. -/
def findPathOld (sc : K) (C : OldCfg K) (risk : Cell → Option K) (is3D : Bool) (s t parent : Cell)
    (pick : List ((Cell × Bool) × K) → ℕ) (max n : ℕ) : Option (Option (List Cell)) :=
  match runLoop (oldProblem sc C risk is3D t pick) max n (SearchSt.init (oldProblem sc C risk is3D t pick) s) with
  | none => none
  | some (none, _) => some none
  | some (some r, st) => (walkBackCell st.parent s n r.1).map fun back => some ((back ++ [s] ++ [parent]).reverse)

/-- `Cell(x.xIndex(), x.yIndex(), alt)`, search_tools.h 209-210: the index is used as a coordinate. -/
def aboveCell (sc : K) (c : Cell) (alt : ℤ) : Cell := cellOf sc ⟨(c.x : K), (c.y : K), (alt : K)⟩

/-- `find2DPath`, search_tools.h 203-227, called with an empty `path`. -/
def find2DPath (sc : K) (C : OldCfg K) (risk : Cell → Option K) (s t : Cell) (pick : List ((Cell × Bool) × K) → ℕ) (max n : ℕ) :
    Option (Option (List Cell)) :=
  let aboveS := aboveCell sc s C.maxAltitude
  let aboveT := aboveCell sc t C.maxAltitude
  match findPathOld sc C risk true s aboveS s pick max n, findPathOld sc C risk true aboveT t aboveT pick max n,
      findPathOld sc C risk false aboveS aboveT aboveS pick max n with
  | some (some up), some (some down), some (some vert) => some (some (up ++ vert ++ down))
  | some _, some _, some _ => some none
  | _, _, _ => none

end

end Global
end Avoidance
