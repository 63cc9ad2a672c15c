import Verif.Candidates
import Verif.CostMatrix

/-!
# `StarPlanner` (local_planner/src/nodes/star_planner.cpp) and `TreeNode`
(local_planner/src/nodes/tree_node.cpp)

Model only.  `none` as an overall result is an out-of-range vector access, a loop that does not end,
or an undefined candidate list.
-/

namespace Avoidance

/-- `class TreeNode`, tree_node.h:9-36.  `total` is `none` for `HUGE_VAL`. -/
structure TreeNode where
  pos : V3 ℝ
  vel : V3 ℝ
  total : Option ℝ
  heuristic : ℝ
  origin : ℕ
  closed : Bool
  depth : ℕ

/-- Configuration and inputs of the planner, star_planner.h:22-39. -/
structure StarConfig where
  children_per_node : ℕ
  n_expanded_nodes : ℕ
  tree_node_distance : ℝ
  max_path_length : ℝ
  tree_heuristic_weight : ℝ
  goal : V3 ℝ
  position : V3 ℝ
  velocity : V3 ℝ

noncomputable section

/-- `treeHeuristicFunction`, star_planner.cpp:36-38, of a node position. -/
def treeHeuristic (cfg : StarConfig) (pos : V3 ℝ) : ℝ :=
  (cfg.goal.minus pos).norm * cfg.tree_heuristic_weight

/-- The root, star_planner.cpp:53-55. -/
def rootNode (cfg : StarConfig) : TreeNode :=
  ⟨cfg.position, cfg.velocity, some (treeHeuristic cfg cfg.position), treeHeuristic cfg cfg.position,
    0, false, 0⟩

/-- The "close node" check, star_planner.cpp:86-94. -/
def hasCloseNode (tree : List TreeNode) (loc : V3 ℝ) : Bool :=
  tree.any fun n => decide ((n.pos.minus loc).norm < 1 / 5)

/-- Body of the candidate loop, star_planner.cpp:80-103; the state is (tree, children). -/
def addCandidate (cfg : StarConfig) (origin : ℕ) (origin_position : V3 ℝ)
    (s : List TreeNode × ℕ) (c : Candidate ℝ) : Option (List TreeNode × ℕ) :=
  let loc := polarHistogramToCartesian ⟨c.elevation, c.azimuth, cfg.tree_node_distance⟩ origin_position
  let vel := loc.minus origin_position
  if s.2 < cfg.children_per_node ∧ hasCloseNode s.1 loc = false then
    (s.1[origin]?).map fun o =>
      let h := treeHeuristic cfg loc
      (s.1 ++ [⟨loc, vel, o.total.map fun t => t - o.heuristic + c.cost + h, h, origin, false,
        o.depth + 1⟩], s.2 + 1)
  else some s

/-- The expansion of one node, star_planner.cpp:60-108.  `candidates` stands for lines 62-71
(histogram, cost matrix, best candidates); see `candidatesAt` for the actual composition. -/
def expandNode (cfg : StarConfig) (candidates : V3 ℝ → V3 ℝ → Option (List (Candidate ℝ)))
    (tree : List TreeNode) (origin : ℕ) : Option (List TreeNode) :=
  (tree[origin]?).bind fun o =>
  (candidates o.pos o.vel).bind fun cs =>
  (if cs = [] then some (tree.set origin { o with total := none })
    else (loopM (addCandidate cfg origin o.pos) (tree, 0) cs).map Prod.fst).bind fun tree =>
  (tree[origin]?).map fun o => tree.set origin { o with closed := true }

/-- `t < m`, where `m = none` is `HUGE_VAL`. -/
def ltHuge (t : ℝ) (m : Option ℝ) : Prop := ∀ x, m = some x → t < x

open Classical in
/-- Body of the loop that looks for the next node to expand, star_planner.cpp:113-122.  State:
(minimal_cost (`none` = `HUGE_VAL`), origin, is_expanded_node). -/
def pickStep (cfg : StarConfig) (s : Option ℝ × ℕ × Bool) (ni : TreeNode × ℕ) : Option ℝ × ℕ × Bool :=
  if ni.1.closed then s
  else
    let node_distance := (ni.1.pos.minus cfg.position).norm
    match ni.1.total with
    | none => s
    | some t =>
      if ltHuge t s.1 ∧ node_distance < cfg.max_path_length then (some t, ni.2, true)
      else s

/-- The choice of the next node, star_planner.cpp:110-122. -/
def pickNext (cfg : StarConfig) (tree : List TreeNode) (origin : ℕ) : ℕ × Bool :=
  ((tree.zipIdx).foldl (pickStep cfg) (none, origin, false)).2

/-- The planner's main loop, star_planner.cpp:58-126, `n` iterations left.  State: tree, closed set,
origin. -/
def growTree (cfg : StarConfig) (candidates : V3 ℝ → V3 ℝ → Option (List (Candidate ℝ))) :
    ℕ → List TreeNode → List ℕ → ℕ → Option (List TreeNode × List ℕ)
  | 0, tree, closed_set, _ => some (tree, closed_set)
  | n + 1, tree, closed_set, origin =>
    (expandNode cfg candidates tree origin).bind fun tree =>
    let closed_set := closed_set ++ [origin]
    let (origin, is_expanded_node) := pickNext cfg tree origin
    if is_expanded_node then growTree cfg candidates n tree closed_set origin
    else some (tree, closed_set)

/-- Body of the search for the deepest open node, star_planner.cpp:131-138; state (max_depth,
max_depth_index). -/
def deepestStep (s : ℕ × ℕ) (ni : TreeNode × ℕ) : ℕ × ℕ :=
  if ni.1.closed then s else if ni.1.depth > s.1 then (ni.1.depth, ni.2) else s

/-- star_planner.cpp:129-138. -/
def deepestOpen (tree : List TreeNode) : ℕ := ((tree.zipIdx).foldl deepestStep (0, 0)).2

/-- `while (tree_end > 0)`, star_planner.cpp:141-147, as the list of visited node indices; the first
argument bounds the number of iterations (`none` when it is exhausted). -/
def followParents (tree : List TreeNode) : ℕ → ℕ → Option (List ℕ)
  | _, 0 => some [0]
  | 0, _ + 1 => none
  | fuel + 1, e + 1 =>
    (tree[e + 1]?).bind fun n => (followParents tree fuel n.origin).map fun l => (e + 1) :: l

/-- Result of `buildLookAheadTree`. -/
structure StarResult where
  tree : List TreeNode
  closed_set : List ℕ
  path_nodes : List ℕ
  path : List (V3 ℝ)

/-- Positions of the nodes with the given indices. -/
def positionsOf (tree : List TreeNode) (l : List ℕ) : Option (List (V3 ℝ)) :=
  loopM (fun (acc : List (V3 ℝ)) i => (tree[i]?).map fun n => acc ++ [n.pos]) [] l

/-- `buildLookAheadTree`, star_planner.cpp:40-149. -/
def buildLookAheadTree (cfg : StarConfig)
    (candidates : V3 ℝ → V3 ℝ → Option (List (Candidate ℝ))) : Option StarResult :=
  (growTree cfg candidates cfg.n_expanded_nodes [rootNode cfg] [] 0).bind fun (tree, closed_set) =>
  (followParents tree tree.length (deepestOpen tree)).bind fun l =>
  (positionsOf tree l).map fun path => ⟨tree, closed_set, l, path⟩

/-- The candidate directions of a node, star_planner.cpp:62-71: histogram around the node from the
stored cloud, cost matrix, best candidates. -/
def candidatesAt (Q : PriorityQueue (Candidate ℝ) Candidate.lt) (cloud : List (AgedPoint ℝ))
    (goal closest_pt : V3 ℝ) (params : CostParams) (margin max_range min_range : ℝ) (children : ℕ)
    (pos vel : V3 ℝ) : Option (List (Candidate ℝ)) :=
  (generateNewHistogram (Histogram.new ALPHA_RES) cloud pos).bind fun h =>
  (getCostMatrix h goal pos vel params margin closest_pt max_range min_range).bind fun m =>
  getBestCandidates Q m GRID_LENGTH_E GRID_LENGTH_Z children

end
end Avoidance
