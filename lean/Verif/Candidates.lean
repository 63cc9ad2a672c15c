import Verif.HistGen
import Mathlib.Data.Multiset.Basic
import Mathlib.Data.Multiset.AddSub
import Mathlib.Data.Multiset.Sort

/-!
# `getBestCandidatesFromCostMatrix`
(local_planner/src/nodes/planner_functions.cpp:231-258) and `candidateDirection`
(local_planner/include/local_planner/candidate_direction.h)

Model only.  `std::priority_queue` is not re-implemented: the function is written against every
implementation that satisfies the contract of the C++ standard (`PriorityQueue` below), in particular
without fixing which of several equally expensive candidates `top()` returns.
-/

namespace Avoidance

/-- `struct candidateDirection`, candidate_direction.h:6-18. -/
structure Candidate (K : Type*) where
  cost : K
  elevation : K
  azimuth : K
  deriving DecidableEq

/-- `candidateDirection::operator<`, candidate_direction.h:13. -/
def Candidate.lt {K : Type*} [LT K] (x y : Candidate K) : Prop := x.cost < y.cost

/-- The contract of `std::priority_queue<A, std::vector<A>, std::less<A>>`: a bag with `push`, `pop`
and `top`, where `top` is an element no element of the bag exceeds and `pop` removes that element.
`top` of an empty queue is undefined behaviour (`none`). -/
structure PriorityQueue (A : Type*) [DecidableEq A] (lt : A → A → Prop) where
  State : Type
  empty : State
  push : State → A → State
  pop : State → State
  top : State → Option A
  bag : State → Multiset A
  bag_empty : bag empty = 0
  bag_push : ∀ s a, bag (push s a) = a ::ₘ bag s
  top_none : ∀ s, bag s = 0 → top s = none
  top_some : ∀ s, bag s ≠ 0 → ∃ m, top s = some m ∧ m ∈ bag s ∧ (∀ x ∈ bag s, ¬ lt m x) ∧
    bag (pop s) = (bag s).erase m

section
variable {K : Type*} [Field K] [LinearOrder K] [IsStrictOrderedRing K]

/-- The candidate of one matrix cell, planner_functions.cpp:237-239. -/
def cellCandidate (cost : ℕ → ℕ → K) (c : ℕ × ℕ) : Candidate K :=
  let p_pol := histogramIndexToPolar (K := K) c.1 c.2 ALPHA_RES 1
  ⟨cost c.1 c.2, p_pol.e, p_pol.z⟩

/-- Loop body, planner_functions.cpp:241-246: `queue.size() < n` compares unsigned integers. -/
def offer (Q : PriorityQueue (Candidate K) Candidate.lt) (n : ℕ) (q : Q.State) (c : Candidate K) :
    Option Q.State :=
  if (Q.bag q).card < n then some (Q.push q c)
  else (Q.top q).bind fun t => if c.cost < t.cost then some (Q.pop (Q.push q c)) else some q

/-- `while (!queue.empty())`, planner_functions.cpp:253-256; the first argument is the queue size. -/
def drain (Q : PriorityQueue (Candidate K) Candidate.lt) : ℕ → Q.State → List (Candidate K)
  | 0, _ => []
  | n + 1, q =>
    match Q.top q with
    | none => []
    | some t => t :: drain Q n (Q.pop q)

/-- `getBestCandidatesFromCostMatrix`, planner_functions.cpp:231-258, on a `rows`×`cols` matrix. -/
def getBestCandidates (Q : PriorityQueue (Candidate K) Candidate.lt) (cost : ℕ → ℕ → K)
    (rows cols n : ℕ) : Option (List (Candidate K)) :=
  (loopM (offer Q n) Q.empty ((cellList (List.range rows) cols).map (cellCandidate cost))).map
    fun q => (drain Q (Q.bag q).card q).reverse

end
end Avoidance
