import Verif.GpNode
import Verif.GpFallback

/-!
# Model: repeated searches with a falling overestimation factor (global_planner/src/library/global_planner.cpp 413-480)
-/

namespace Avoidance
namespace Global

section
variable {K : Type*} [Field K] [LinearOrder K] [IsStrictOrderedRing K] [FloorRing K]

/-- The parameters of the loop: global_planner.h 79-80, 95 (`min_overestimate_factor_`, `max_overestimate_factor_`,
`default_node_type_`). -/
structure ReplanCfg (K : Type*) where
  minFactor : K
  maxFactor : K
  kind : NodeKind

/-- One call of `findSmoothPath` (global_planner.cpp 451): factor, node type, iterations allowed. -/
structure Call (K : Type*) where
  factor : K
  kind : NodeKind
  budget : ℕ
deriving DecidableEq

/-- What `findSmoothPath` gives: the path, if one was found, and `num_iter`. -/
abbrev Search (K : Type*) := Call K → Option (List Cell) × ℕ

/-- The node type of a search: global_planner.cpp 442-448. -/
def callKind (R : ReplanCfg K) (factor : K) : NodeKind := if 3 / 2 < factor then .withoutSmooth else R.kind

/-- What the loop leaves behind: `overestimate_factor_`, `path` (if `found_path`), and, for the statements, the calls it made. -/
structure Replanned (K : Type*) where
  factor : K
  best : Option (List Cell)
  calls : List (Call K)
deriving DecidableEq

/-- The loop of `findPath`, global_planner.cpp 439-470, from the state (`overestimate_factor_`, `iter_left`, `last_iter`, path
found so far, calls made so far). `none`: still running after `n` passes. (Line 458 always takes the newest path.) -/
def replanLoop (R : ReplanCfg K) (search : Search K) : ℕ → K → ℤ → ℤ → Option (List Cell) → List (Call K) → Option (Replanned K)
  | 0, _, _, _, _, _ => none
  | n + 1, factor, left, last, best, calls =>
    if R.minFactor ≤ factor ∧ last < left then
      let call : Call K := ⟨factor, callKind R factor, left.toNat⟩
      match search call with
      | (none, _) => some ⟨factor, best, calls ++ [call]⟩
      | (some p, it) => replanLoop R search n ((factor - 1) / 4 + 1) (left - it) it (some p) (calls ++ [call])
    else some ⟨factor, best, calls⟩

/-- The loop as it is entered: global_planner.cpp 432-434. -/
def replan (R : ReplanCfg K) (search : Search K) (maxIter : ℤ) (n : ℕ) : Option (Replanned K) :=
  replanLoop R search n R.maxFactor maxIter 0 none []

/-- What `findPath` leaves behind: `overestimate_factor_`, `max_iterations_`, the path returned (`none`: returns false). -/
structure Found (K : Type*) where
  factor : K
  maxIter : ℤ
  path : Option (List Cell)
deriving DecidableEq

/-- `findPath`, global_planner.cpp 430-480, with the searches as parameters: if no search succeeded, `max_iterations_` becomes 5000
(for good) and the path at maximum altitude is tried. -/
def findPath (R : ReplanCfg K) (search : Search K) (fallback : ℤ → Option (List Cell)) (maxIter : ℤ) (n : ℕ) : Option (Found K) :=
  match replan R search maxIter n with
  | none => none
  | some r => match r.best with
    | some p => some ⟨r.factor, maxIter, some p⟩
    | none => some ⟨r.factor, 5000, fallback 5000⟩

/-- Start cell and its parent: global_planner.cpp 416-424. The assignment in line 423 is to a new variable that is never used, so
`use_current_yaw_` has no effect. -/
def startNode (sc : K) (pos vel : V3 K) (searchTime : K) : Node :=
  ⟨cellOf sc ⟨pos.x + searchTime * vel.x, pos.y + searchTime * vel.y, pos.z + searchTime * vel.z⟩,
   cellOf sc ⟨pos.x - searchTime * vel.x, pos.y - searchTime * vel.y, pos.z - searchTime * vel.z⟩⟩

end

end Global
end Avoidance
