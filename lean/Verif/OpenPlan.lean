import Verif.StarPlanner

/-!
# Planning for a goal whose height is not a number

`runPlanner` with a goal as `WpOpen` describes: lines 128-207 and 231-258 of planner_functions.cpp and
`buildLookAheadTree` once more, with the height of the goal (`none` is NaN) and with costs that may be NaN.  Arithmetic with NaN
is NaN, every comparison with NaN is false.  `(int)floor(NaN)` is undefined in C++: the integer it gives is a parameter, `conv`.
-/

namespace Avoidance

noncomputable section
open Classical

/-- `polarToHistogramIndex`, avoidance/src/common.cpp:177-195, of a direction whose elevation is NaN: (azimuth index, elevation
index).  `wrapPolar` wraps only the azimuth, as for elevation zero; the elevation index is `conv`, clamped. -/
def indexOpen (conv : ℤ) (azimuth : ℝ) (res : ℕ) : ℤ × ℤ :=
  let x := (polarToHistogramIndex (⟨0, azimuth, 0⟩ : PolarPoint ℝ) res).1
  let y := if conv ≥ ((180 / res : ℕ) : ℤ) then ((180 / res : ℕ) : ℤ) - 1 else conv
  (x, if y < 0 then 0 else y)

/-- `is_obstacle_facing_goal`, planner_functions.cpp:140-158, with a goal of NaN height: `conv` may be different in each of the 55
conversions. -/
def facingOpen (conv : ℕ × ℕ → ℤ) (h : Histogram ℝ) (goal_x goal_y : ℝ) (position : V3 ℝ) (max_range min_range : ℝ) : Option Bool :=
  let azimuth := (cartesianToPolarHistogram ⟨goal_x, goal_y, 0⟩ position).z
  loopM (fun (b : Bool) (ji : ℕ × ℕ) =>
      let idx := indexOpen (conv ji) (azimuth + (((ji.2 : ℤ) - 5 : ℤ) : ℝ) * (ALPHA_RES : ℕ)) ALPHA_RES
      (h.getDist idx.2 idx.1).map fun d => if d > min_range ∧ d < max_range then b || true else b)
    false (cellList (List.range 5) 11)

/-- `costFunction`, planner_functions.cpp:328-363, for a goal whose height may be NaN: the elevation of the goal and the distance to
it are then NaN, so is the pitch cost, and the comparison of line 356 is false.  Of the closest point only the horizontal part is
used. -/
def costFunctionOpen (candidate : PolarPoint ℝ) (obstacle_distance : ℝ) (goal_x goal_y : ℝ) (goal_z : Option ℝ)
    (position velocity : V3 ℝ) (params : CostParams) (closest_x closest_y : ℝ) (is_obstacle_facing_goal : Bool) : ℝ × Option ℝ :=
  let facing_goal_z := (cartesianToPolarHistogram ⟨goal_x, goal_y, 0⟩ position).z
  let facing_goal_e := goal_z.map fun z => (cartesianToPolarHistogram ⟨goal_x, goal_y, z⟩ position).e
  let goal_distance := goal_z.map fun z => ((⟨goal_x, goal_y, z⟩ : V3 ℝ).minus position).norm
  let candidate_velocity_cartesian := polarHistogramToCartesian candidate ⟨0, 0, 0⟩
  let angle_diff := angleDifference candidate.z facing_goal_z
  let facing_line_z := (cartesianToPolarHistogram ⟨closest_x, closest_y, 0⟩ position).z
  let angle_diff_to_line := angleDifference candidate.z facing_line_z
  let velocity_cost :=
    params.velocity * (velocity.norm - candidate_velocity_cartesian.normalized.dot velocity)
  let weight : ℝ := if !is_obstacle_facing_goal then 1 / 2 else 0
  let yaw_cost := (1 - weight) * params.yaw * angle_diff * angle_diff
  let yaw_to_line_cost := weight * params.yaw * angle_diff_to_line * angle_diff_to_line
  let pitch_cost := facing_goal_e.map fun e => params.pitch * (candidate.e - e) * (candidate.e - e)
  let pitch_cost :=
    match goal_distance with
    | some d => if d < 5 then pitch_cost.map fun c => c / ((1 / 5 * d) * (1 / 5 * d)) else pitch_cost
    | none => pitch_cost
  (distanceCost params obstacle_distance, pitch_cost.map fun c => velocity_cost + yaw_cost + yaw_to_line_cost + c)

/-- `getCostMatrix`, planner_functions.cpp:128-207, without the debug image.  An entry `none` is NaN. -/
def getCostMatrixOpen (conv : ℕ × ℕ → ℤ) (h : Histogram ℝ) (goal_x goal_y : ℝ) (goal_z : Option ℝ) (position velocity : V3 ℝ)
    (params : CostParams) (smoothing_margin_degrees : ℝ) (closest_x closest_y : ℝ) (max_sensor_range min_sensor_range : ℝ) :
    Option (ℕ → ℕ → Option ℝ) :=
  (facingOpen conv h goal_x goal_y position max_sensor_range min_sensor_range).bind fun facing =>
  let cost := fun e z : ℕ => (h.getDist e z).map fun obstacle_distance =>
    costFunctionOpen (histogramIndexToPolar (K := ℝ) e z ALPHA_RES 1) obstacle_distance goal_x goal_y goal_z position velocity params
      closest_x closest_y facing
  (fillMatrix GRID_LENGTH_E GRID_LENGTH_Z stepSize fun e z => (cost e z).bind Prod.snd).bind fun cost_matrix =>
  (fillMatrix GRID_LENGTH_E GRID_LENGTH_Z stepSize fun e z => (cost e z).map Prod.fst).bind fun distance_matrix =>
  (withoutNaN GRID_LENGTH_E GRID_LENGTH_Z distance_matrix).bind fun distance_matrix =>
  let smooth_radius := ⌈smoothing_margin_degrees / (ALPHA_RES : ℕ)⌉.toNat
  (smoothPolarMatrix distance_matrix GRID_LENGTH_E GRID_LENGTH_Z smooth_radius).map
    fun distance_matrix => fun e z => (cost_matrix e z).map (· + distance_matrix e z)

/-- `struct candidateDirection`, candidate_direction.h:6-18, with a cost that may be NaN. -/
structure OpenCandidate where
  cost : Option ℝ
  elevation : ℝ
  azimuth : ℝ

/-- `candidateDirection::operator<`, candidate_direction.h:13: false with NaN. -/
def OpenCandidate.lt (x y : OpenCandidate) : Prop := ∃ a b, x.cost = some a ∧ y.cost = some b ∧ a < b

/-- Loop body, planner_functions.cpp:237-246. -/
def offerOpen (Q : PriorityQueue OpenCandidate OpenCandidate.lt) (n : ℕ) (q : Q.State) (c : OpenCandidate) : Option Q.State :=
  if (Q.bag q).card < n then some (Q.push q c)
  else (Q.top q).bind fun t => if OpenCandidate.lt c t then some (Q.pop (Q.push q c)) else some q

/-- `while (!queue.empty())`, planner_functions.cpp:253-256; the first argument is the queue size. -/
def drainOpen (Q : PriorityQueue OpenCandidate OpenCandidate.lt) : ℕ → Q.State → List OpenCandidate
  | 0, _ => []
  | n + 1, q =>
    match Q.top q with
    | none => []
    | some t => t :: drainOpen Q n (Q.pop q)

/-- The candidate of one matrix cell, planner_functions.cpp:237-239. -/
def cellCandidateOpen (cost : ℕ → ℕ → Option ℝ) (c : ℕ × ℕ) : OpenCandidate :=
  let p_pol := histogramIndexToPolar (K := ℝ) c.1 c.2 ALPHA_RES 1
  ⟨cost c.1 c.2, p_pol.e, p_pol.z⟩

/-- `getBestCandidatesFromCostMatrix`, planner_functions.cpp:231-258. -/
def getBestOpen (Q : PriorityQueue OpenCandidate OpenCandidate.lt) (cost : ℕ → ℕ → Option ℝ) (rows cols n : ℕ) :
    Option (List OpenCandidate) :=
  (loopM (offerOpen Q n) Q.empty ((cellList (List.range rows) cols).map (cellCandidateOpen cost))).map
    fun q => (drainOpen Q (Q.bag q).card q).reverse

/-- Body of the candidate loop, star_planner.cpp:80-103, with a goal of NaN height: the heuristic is NaN and with it the total cost
of every node (`total` is `none`, which is never smaller than anything, as NaN is not). -/
def addCandidateOpen (cfg : StarConfig) (origin : ℕ) (origin_position : V3 ℝ) (s : List TreeNode × ℕ) (c : OpenCandidate) :
    Option (List TreeNode × ℕ) :=
  let loc := polarHistogramToCartesian ⟨c.elevation, c.azimuth, cfg.tree_node_distance⟩ origin_position
  let vel := loc.minus origin_position
  if s.2 < cfg.children_per_node ∧ hasCloseNode s.1 loc = false then
    (s.1[origin]?).map fun o => (s.1 ++ [⟨loc, vel, none, 0, origin, false, o.depth + 1⟩], s.2 + 1)
  else some s

/-- The expansion of one node, star_planner.cpp:60-108. -/
def expandNodeOpen (cfg : StarConfig) (candidates : V3 ℝ → V3 ℝ → Option (List OpenCandidate)) (tree : List TreeNode) (origin : ℕ) :
    Option (List TreeNode) :=
  (tree[origin]?).bind fun o =>
  (candidates o.pos o.vel).bind fun cs =>
  (if cs = [] then some (tree.set origin { o with total := none })
    else (loopM (addCandidateOpen cfg origin o.pos) (tree, 0) cs).map Prod.fst).bind fun tree =>
  (tree[origin]?).map fun o => tree.set origin { o with closed := true }

/-- The planner's main loop, star_planner.cpp:58-126. -/
def growTreeOpen (cfg : StarConfig) (candidates : V3 ℝ → V3 ℝ → Option (List OpenCandidate)) :
    ℕ → List TreeNode → List ℕ → ℕ → Option (List TreeNode × List ℕ)
  | 0, tree, closed_set, _ => some (tree, closed_set)
  | n + 1, tree, closed_set, origin =>
    (expandNodeOpen cfg candidates tree origin).bind fun tree =>
    let closed_set := closed_set ++ [origin]
    let (origin, is_expanded_node) := pickNext cfg tree origin
    if is_expanded_node then growTreeOpen cfg candidates n tree closed_set origin
    else some (tree, closed_set)

/-- `buildLookAheadTree`, star_planner.cpp:40-149 (the height of `cfg.goal` is not used). -/
def buildTreeOpen (cfg : StarConfig) (candidates : V3 ℝ → V3 ℝ → Option (List OpenCandidate)) : Option StarResult :=
  (growTreeOpen cfg candidates cfg.n_expanded_nodes [⟨cfg.position, cfg.velocity, none, 0, 0, false, 0⟩] [] 0).bind fun (tree, closed_set) =>
  (followParents tree tree.length (deepestOpen tree)).bind fun l =>
  (positionsOf tree l).map fun path => ⟨tree, closed_set, l, path⟩

/-- The candidate directions of a node, star_planner.cpp:62-71. -/
def candidatesOpen (Q : PriorityQueue OpenCandidate OpenCandidate.lt) (conv : ℕ × ℕ → ℤ) (cloud : List (AgedPoint ℝ))
    (goal_x goal_y : ℝ) (goal_z : Option ℝ) (closest_x closest_y : ℝ) (params : CostParams) (margin max_range min_range : ℝ)
    (children : ℕ) (pos vel : V3 ℝ) : Option (List OpenCandidate) :=
  (generateNewHistogram (Histogram.new ALPHA_RES) cloud pos).bind fun h =>
  (getCostMatrixOpen conv h goal_x goal_y goal_z pos vel params margin closest_x closest_y max_range min_range).bind fun m =>
  getBestOpen Q m GRID_LENGTH_E GRID_LENGTH_Z children

end
end Avoidance
