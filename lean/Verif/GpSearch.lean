import Verif.GpCell

/-!
# Model: the graph search of the global planner (global_planner/include/global_planner/search_tools.h)

`findSmoothPath` (127-202) is a template over the node type: the model is generic over the node type `ν`, the identity `κ`
the hash containers use (`isEqual`/`hash`: cell and parent for `Node` and `SpeedNode`, only the cell for
`NodeWithoutSmooth`) and the callbacks of the planner.

* `unordered_set`/`unordered_map` with a custom hash and equality are functions (lists) on `κ`.
* Pointers: the loop that walks back compares `shared_ptr`s (`walker != s`, line 186), not nodes. A reference is a node with
  a flag that says whether it is the pointer `s` itself (all other nodes are allocated by `getNeighbors`).
* The priority queue is a list; which entry is on top is chosen by `pick`, an arbitrary function of the queue. All theorems
  that do not assume more therefore hold for every order of the queue (ties, NaN priorities, any heuristic).
* `cost = none` is a NaN cost, for which `new_dist < old_dist` is false.
* The heuristic may depend on all nodes pushed so far (the visitor counts them: visitor.h 20-23, global_planner.cpp 329-331).
* Loops run on fuel; `none` means that the fuel ran out (or that the walk back dereferences a null pointer). That this
  never happens for enough fuel is a theorem.
-/

namespace Avoidance
namespace Global

/-- The node type and the callbacks of the planner used by a search. -/
structure Problem (ν κ K : Type*) where
  /-- what `isEqual`/`hash` look at: node.cpp 8-12, node.h 61-63 -/
  key : ν → κ
  /-- `getNeighbors` -/
  nbrs : ν → List ν
  /-- `isLegal` -/
  legal : ν → Bool
  /-- `getEdgeCost`; `none` is NaN -/
  cost : ν → ν → Option K
  /-- `getHeuristic`; the first argument lists the nodes pushed so far, latest first -/
  heur : List ν → ν → K
  /-- `t.withinPlanRadius(u->cell_)` -/
  goal : ν → Bool
  /-- position of the top of the queue -/
  pick : List ((ν × Bool) × K) → ℕ

/-- A `NodePtr`: the node and whether the pointer is the start pointer `s`. -/
abbrev Ref (ν : Type*) := ν × Bool

/-- The local variables of `findSmoothPath`: search_tools.h 131-140. -/
structure SearchSt (ν κ K : Type*) where
  pq : List (Ref ν × K)
  seen : List κ
  parent : κ → Option (Ref ν)
  dist : κ → Option K
  iter : ℕ
  pushed : List ν

section
variable {ν κ K : Type*} [DecidableEq κ] [Field K] [LinearOrder K]

/-- search_tools.h 131-140. -/
def SearchSt.init (P : Problem ν κ K) (s : ν) : SearchSt ν κ K :=
  { pq := [((s, true), 0)], seen := [], parent := fun _ => none, dist := fun k => if k = P.key s then some 0 else none,
    iter := 0, pushed := [] }

/-- `new_dist < getWithDefault(distance, v, INFINITY)`: search_tools.h 161-162. -/
def better (nd : K) : Option K → Prop
  | none => True
  | some od => nd < od

instance (nd : K) (o : Option K) : Decidable (better nd o) := by cases o <;> unfold better <;> infer_instance

/-- The update of the containers: search_tools.h 164-169. -/
def relaxUpdate (P : Problem ν κ K) (u : Ref ν) (st : SearchSt ν κ K) (v : ν) (nd : K) : SearchSt ν κ K :=
  { st with
    parent := fun k => if k = P.key v then some u else st.parent k
    dist := fun k => if k = P.key v then some nd else st.dist k
    pq := ((v, false), nd + P.heur st.pushed v) :: st.pq
    pushed := v :: st.pushed }

/-- The body of the loop over the neighbours: search_tools.h 156-171. (`distance[u]` would insert 0 for an unknown `u`.) -/
def relax (P : Problem ν κ K) (u : Ref ν) (st : SearchSt ν κ K) (v : ν) : SearchSt ν κ K :=
  if P.legal v = true then
    match P.cost u.1 v with
    | none => st
    | some c =>
      if better ((st.dist (P.key u.1)).getD 0 + c) (st.dist (P.key v)) then
        relaxUpdate P u st v ((st.dist (P.key u.1)).getD 0 + c)
      else st
  else st

/-- search_tools.h 156-172. -/
def expand (P : Problem ν κ K) (u : Ref ν) (st : SearchSt ν κ K) : SearchSt ν κ K := (P.nbrs u.1).foldl (relax P u) st

/-- `pq.top(); pq.pop()`: search_tools.h 144-145. -/
def popTop (P : Problem ν κ K) (l : List (Ref ν × K)) : Option ((Ref ν × K) × List (Ref ν × K)) :=
  (l[P.pick l % l.length]?).map fun e => (e, l.eraseIdx (P.pick l % l.length))

/-- What one pass through the loop leads to. -/
inductive Outcome (ν κ K : Type*)
  | running (st : SearchSt ν κ K)
  | found (r : Ref ν) (st : SearchSt ν κ K)
  | stopped (st : SearchSt ν κ K)

/-- One pass through the main loop, search_tools.h 143-173; `seen_nodes.insert` 150, `num_iter++` 155. -/
def iterateOnce (P : Problem ν κ K) (max : ℕ) (st : SearchSt ν κ K) : Outcome ν κ K :=
  if st.iter < max then
    match popTop P st.pq with
    | none => .stopped st
    | some (e, rest) =>
      if P.key e.1.1 ∈ st.seen then .running { st with pq := rest }
      else if P.goal e.1.1 = true then .found e.1 { st with pq := rest, seen := P.key e.1.1 :: st.seen }
      else .running (expand P e.1 { st with pq := rest, seen := P.key e.1.1 :: st.seen, iter := st.iter + 1 })
  else .stopped st

/-- The main loop, search_tools.h 143-173. -/
def runLoop (P : Problem ν κ K) (max : ℕ) : ℕ → SearchSt ν κ K → Option (Option (Ref ν) × SearchSt ν κ K)
  | 0, _ => none
  | n + 1, st => match iterateOnce P max st with
    | .running st' => runLoop P max n st'
    | .found r st' => some (some r, st')
    | .stopped st' => some (none, st')

/-- `while (walker != s)`, search_tools.h 184-188: the nodes from the goal back to the start, the start excluded. -/
def walkBack (P : Problem ν κ K) (st : SearchSt ν κ K) : ℕ → Ref ν → Option (List ν)
  | 0, _ => none
  | n + 1, r =>
    if r.2 = true then some []
    else match st.parent (P.key r.1) with
      | none => none
      | some p => (walkBack P st n p).map (r.1 :: ·)

/-- `findSmoothPath`, search_tools.h 127-202: the nodes of the path from the start node to the goal (or `none` if the search
failed) and the number of iterations. (`best_goal_node` is only set to a node that passed the goal test, so the second test in
line 179 repeats the first.) -/
def findSmoothPath (P : Problem ν κ K) (s : ν) (max n : ℕ) : Option (Option (List ν) × ℕ) :=
  match runLoop P max n (SearchSt.init P s) with
  | none => none
  | some (none, st) => some (none, st.iter)
  | some (some r, st) => (walkBack P st n r).map fun back => (some (back ++ [s]).reverse, st.iter)

end

end Global
end Avoidance
