import Verif.GpNode
import Mathlib.Algebra.Order.Archimedean.Basic

/-!
# Model: path simplification (global_planner/include/global_planner/search_tools.h 69-118)

The cost of an edge (`getEdgeCost` for the type `Node`) is a parameter; `none` is a NaN, for which `new_cost > margin * cost` is
false.
-/

namespace Avoidance
namespace Global

section
variable {K : Type*} [Field K] [LinearOrder K]

/-- `new_cost > simplify_margin * curr_cost`, search_tools.h 93-95, for the points `a b c d` in the roles `curr_path[i-3]` ..
`curr_path[i]`. -/
def keepsVertex (cost : Node → Node → Option K) (margin : K) (a b c d : Cell) : Bool :=
  match cost ⟨b, a⟩ ⟨c, b⟩, cost ⟨c, b⟩ ⟨d, c⟩, cost ⟨b, a⟩ ⟨d, b⟩ with
  | some x, some y, some w => decide (margin * (x + y) < w)
  | _, _, _ => false

/-- The loop over `i` of one pass, search_tools.h 86-105: `a`, `b` are `curr_path[i-3]`, `curr_path[i-2]`, the list is the rest of
`curr_path` from `i-1` on. -/
def simplifyAux (cost : Node → Node → Option K) (margin : K) : Cell → Cell → List Cell → List Cell
  | _, _, [] => []
  | _, _, [c] => [c]
  | a, b, c :: d :: rest =>
    if keepsVertex cost margin a b c d = true then c :: d :: simplifyAux cost margin c d rest
    else d :: simplifyAux cost margin c d rest

/-- One pass, search_tools.h 83-105. -/
def simplifyPass (cost : Node → Node → Option K) (margin : K) : List Cell → List Cell
  | a :: b :: rest => a :: b :: simplifyAux cost margin a b rest
  | l => l

/-- The loop over `j`, search_tools.h 81-111. -/
def simplifyLoop (cost : Node → Node → Option K) (margin : K) : ℕ → List Cell → List Cell
  | 0, l => l
  | n + 1, l =>
    if (simplifyPass cost margin l).length = l.length then l else simplifyLoop cost margin n (simplifyPass cost margin l)

/-- `simplifyPath`, search_tools.h 69-118. `max_iter` is a `double` compared with an `int`: the loop runs at most
`⌈max_iter⌉` times. -/
def simplifyPath [FloorRing K] [IsStrictOrderedRing K] (cost : Node → Node → Option K) (path : List Cell) (margin maxIter : K)
    (decelerate : Bool) : List Cell :=
  if path.length < 3 then path
  else
    let l := simplifyLoop cost margin ⌈maxIter⌉₊ path
    if decelerate = true then l ++ l.getLast?.toList else l

/-- The call of global_planner_node.cpp 377: `simplify_iterations_` is passed for the margin and `simplify_margin_` for the
number of iterations. -/
def nodeSimplify [FloorRing K] [IsStrictOrderedRing K] (cost : Node → Node → Option K) (path : List Cell) (simplifyIterations : ℤ)
    (simplifyMargin : K) : List Cell :=
  simplifyPath cost path (simplifyIterations : K) simplifyMargin true

end

end Global
end Avoidance
