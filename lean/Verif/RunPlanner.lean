import Verif.StarPlanner
import Verif.LocalPlanner

/-!
# The class `LocalPlanner` as a whole (local_planner/src/nodes/local_planner.cpp) together with the
`StarPlanner` it owns (local_planner/src/nodes/star_planner.cpp)

Model only.  `none` is undefined behaviour (out-of-range access, no sensor cloud) or a NaN cost.
Timeouts, images for logging and getters without effect are left out (`timeout_*`,
`histogram_image_data_`, `cost_image_data_`).
-/

namespace Avoidance

/-- The parameters of `LocalPlannerNodeConfig` that `dynamicReconfigureSetParams` (local_planner.cpp:25-50) and
`dynamicReconfigureSetStarParams` (star_planner.cpp:14-23) use, without the timeouts.  The two counts are not
negative (LocalPlannerNode.cfg). -/
structure LpConfig where
  max_sensor_range : ℝ
  min_sensor_range : ℝ
  cost : CostParams
  max_point_age : ℝ
  min_num_points_per_cell : ℤ
  children_per_node : ℕ
  n_expanded_nodes : ℕ
  tree_node_distance : ℝ
  smoothing_margin : ℝ
  tree_heuristic_weight : ℝ
  goal_z : ℝ

/-- `class StarPlanner`, star_planner.h:20-51.  A vector that is still NaN is `none`. -/
structure Star where
  children_per_node : ℕ
  n_expanded_nodes : ℕ
  tree_node_distance : ℝ
  max_path_length : ℝ
  smoothing_margin : ℝ
  tree_heuristic_weight : ℝ
  max_sensor_range : ℝ
  min_sensor_range : ℝ
  cloud : List (AgedPoint ℝ)
  goal : Option (V3 ℝ)
  pose : Option (V3 ℝ × V3 ℝ)
  closest_pt : Option (V3 ℝ)
  cost : CostParams
  tree : List TreeNode
  closed_set : List ℕ
  path : List (V3 ℝ)

/-- Parameters of the autopilot that the planner reads (`ModelParameters`, common.h:72-107); only `CP_DIST` may be
NaN here. -/
structure LpPx4 where
  acc_hor : ℝ
  jerk_max : ℝ
  xy_cruise : ℝ
  cp_dist : Flt ℝ

/-- `class LocalPlanner`, local_planner.h:35-107. -/
structure LPlanner where
  min_num_points_per_cell : ℤ
  min_sensor_range : ℝ
  max_sensor_range : ℝ
  smoothing_margin : ℝ
  max_point_age : ℝ
  yaw_deg : ℝ
  pitch_deg : ℝ
  fovs : List (FOV ℝ)
  last_path_time : ℝ
  last_process_time : ℝ
  star : Star
  cost : CostParams
  cloud : List (AgedPoint ℝ)
  position : V3 ℝ
  velocity : V3 ℝ
  goal : V3 ℝ
  prev_goal : V3 ℝ
  closest_pt : V3 ℝ
  histogram : Histogram ℝ
  distances : Option (List (Option ℝ))
  px4 : LpPx4
  mission_speed : Flt ℝ
  clouds : List (List (V3 (Flt ℝ)))

noncomputable section

/-- Default member values, cost_parameters.h:5-10. -/
def defaultCost : CostParams := ⟨1 / 2, 3, 3 / 2, 5⟩

/-- A new `StarPlanner`, star_planner.h:20-35. -/
def starInit : Star :=
  ⟨1, 5, 1, 4, 30, 10, 15, 1 / 5, [], none, none, none, defaultCost, [], [], []⟩

/-- A new `LocalPlanner`, local_planner.h:35-107, local_planner.cpp:11; `ros::Time()` is 0.  The autopilot
parameters are those of `setDefaultPx4Parameters`, local_planner.cpp:190-203 (in the node they are overwritten before
each run). -/
def lpInit : LPlanner :=
  ⟨3, 1 / 5, 12, 30, 10, 0, 0, [], 0, 0, starInit, defaultCost, [], ⟨0, 0, 0⟩, ⟨0, 0, 0⟩, ⟨0, 0, 0⟩, ⟨0, 0, 0⟩, ⟨0, 0, 0⟩,
    Histogram.new ALPHA_RES, none, ⟨5, 20, 3, .fin 4⟩, .nan, []⟩

/-- `setState`, local_planner.cpp:16-22, with `StarPlanner::setPose`, star_planner.cpp:27-30. -/
def LPlanner.setState (s : LPlanner) (pos vel : V3 ℝ) (q : Quat ℝ) : LPlanner :=
  { s with position := pos, velocity := vel, yaw_deg := getYawFromQuaternion q, pitch_deg := getPitchFromQuaternion q,
           star := { s.star with pose := some (pos, vel) } }

/-- `applyGoal`, local_planner.cpp:70, with `StarPlanner::setGoal`, star_planner.cpp:32. -/
def LPlanner.applyGoal (s : LPlanner) : LPlanner := { s with star := { s.star with goal := some s.goal } }

/-- `setGoal`, local_planner.cpp:52-57. -/
def LPlanner.setGoal (s : LPlanner) (goal : V3 ℝ) : LPlanner := { s with goal := goal }.applyGoal

/-- `setPreviousGoal`, local_planner.cpp:58. -/
def LPlanner.setPreviousGoal (s : LPlanner) (g : V3 ℝ) : LPlanner := { s with prev_goal := g }

/-- `setFOV`, local_planner.cpp:60-66. -/
def LPlanner.setFOV (s : LPlanner) (i : ℕ) (fov : FOV ℝ) : LPlanner :=
  { s with fovs := if i < s.fovs.length then s.fovs.set i fov else s.fovs ++ [fov] }

/-- `dynamicReconfigureSetStarParams`, star_planner.cpp:14-23: the path length is the sensor range. -/
def Star.configure (s : Star) (c : LpConfig) : Star :=
  { s with children_per_node := c.children_per_node, n_expanded_nodes := c.n_expanded_nodes,
           tree_node_distance := c.tree_node_distance, max_path_length := c.max_sensor_range,
           smoothing_margin := c.smoothing_margin, tree_heuristic_weight := c.tree_heuristic_weight,
           max_sensor_range := c.max_sensor_range, min_sensor_range := c.min_sensor_range }

/-- `dynamicReconfigureSetParams`, local_planner.cpp:25-50. -/
def LPlanner.configure (s : LPlanner) (c : LpConfig) : LPlanner :=
  let s := { s with max_sensor_range := c.max_sensor_range, cost := c.cost, max_point_age := c.max_point_age,
                    min_num_points_per_cell := c.min_num_points_per_cell, min_sensor_range := c.min_sensor_range,
                    smoothing_margin := c.smoothing_margin }
  let s := if s.goal.z ≠ c.goal_z then s.setGoal { s.goal with z := c.goal_z } else s
  { s with star := s.star.configure c }

/-- `StarPlanner::buildLookAheadTree`, star_planner.cpp:40-149, on the planner's own data.  NaN inputs are `none`. -/
def Star.build (Q : PriorityQueue (Candidate ℝ) Candidate.lt) (s : Star) : Option Star :=
  s.goal.bind fun goal => s.pose.bind fun pose => s.closest_pt.bind fun closest =>
  (buildLookAheadTree ⟨s.children_per_node, s.n_expanded_nodes, s.tree_node_distance, s.max_path_length,
      s.tree_heuristic_weight, goal, pose.1, pose.2⟩
    (candidatesAt Q s.cloud goal closest s.cost s.smoothing_margin s.max_sensor_range s.min_sensor_range
      s.children_per_node)).map fun r =>
  { s with tree := r.tree, closed_set := r.closed_set, path := r.path }

/-- `FLT_MIN`, the threshold of `Histogram::isEmpty`. -/
def fltMin : ℝ := 1 / 2 ^ 126

/-- `create2DObstacleRepresentation`, local_planner.cpp:85-100, with `updateObstacleDistanceMsg`, 150-173. -/
def LPlanner.create2D (s : LPlanner) (send_to_fcu : Bool) : Option LPlanner :=
  (generateNewHistogram (Histogram.new ALPHA_RES) s.cloud s.position).bind fun h =>
  if send_to_fcu then
    (compressHistogramElevation (Histogram.new ALPHA_RES) h s.position).bind fun c =>
    (obstacleDistanceRanges c s.fovs s.position s.yaw_deg s.min_sensor_range s.max_sensor_range).map fun r =>
    { s with histogram := h, distances := some r }
  else some { s with histogram := h }

/-- `determineStrategy`, local_planner.cpp:116-148. -/
def LPlanner.determineStrategy (Q : PriorityQueue (Candidate ℝ) Candidate.lt) (s : LPlanner) (now : ℝ) : Option LPlanner :=
  (s.create2D ((Flt.fin 0).lt s.px4.cp_dist)).bind fun s =>
  let s := { s with closest_pt := closestPoint s.goal s.prev_goal s.position s.px4.xy_cruise }
  if !s.histogram.isEmpty fltMin then
    (getCostMatrix s.histogram s.goal s.position s.velocity s.cost s.smoothing_margin s.closest_pt s.max_sensor_range
      s.min_sensor_range).bind fun _ =>
    ({ s.star with cost := s.cost, cloud := s.cloud, closest_pt := some s.closest_pt }.build Q).map fun st =>
    { s with star := st, last_path_time := now }
  else some s

/-- What `processPointcloud` is called with, local_planner.cpp:74-77. -/
def LPlanner.cloudParams (s : LPlanner) (now : ℝ) : CloudParams where
  fov := s.fovs
  yaw_deg := s.yaw_deg
  pitch_deg := s.pitch_deg
  position := s.position
  min_range := s.min_sensor_range
  max_range := s.max_sensor_range
  max_age := s.max_point_age
  elapsed := now - s.last_process_time
  min_points := s.min_num_points_per_cell

/-- `runPlanner`, local_planner.cpp:72-83.  The clock is read once (the readings of lines 74, 79 and 146 differ by
the time the planner takes). -/
def LPlanner.run (Q : PriorityQueue (Candidate ℝ) Candidate.lt) (s : LPlanner) (now : ℝ) : Option LPlanner :=
  (processPointcloud (s.cloudParams now) s.cloud s.clouds).bind fun out =>
  { s with cloud := out, last_process_time := now }.determineStrategy Q now

/-- `getAvoidanceOutput`, local_planner.cpp:216-238: speed, path time, path. -/
def LPlanner.output (s : LPlanner) : ℝ × ℝ × List (V3 ℝ) :=
  (cruiseVelocity ⟨s.px4.acc_hor, s.px4.jerk_max, s.px4.xy_cruise⟩ s.max_sensor_range s.mission_speed, s.last_path_time,
    s.star.path)

end

/-- Everything the node does with the planner: setters, configuration, the public members it assigns
(local_planner_nodelet.cpp:98, 162-197, 435-440) and planning. -/
inductive LpEvent where
  | state (pos vel : V3 ℝ) (q : Quat ℝ)
  | applyGoal
  | goal (g : V3 ℝ)
  | prevGoal (g : V3 ℝ)
  | fov (i : ℕ) (f : FOV ℝ)
  | config (c : LpConfig)
  | clouds (l : List (List (V3 (Flt ℝ))))
  | px4 (p : LpPx4)
  | mission (v : Flt ℝ)
  | run (now : ℝ)

/-- One call. -/
noncomputable def lpStep (Q : PriorityQueue (Candidate ℝ) Candidate.lt) (s : LPlanner) : LpEvent → Option LPlanner
  | .state pos vel q => some (s.setState pos vel q)
  | .applyGoal => some s.applyGoal
  | .goal g => some (s.setGoal g)
  | .prevGoal g => some (s.setPreviousGoal g)
  | .fov i f => some (s.setFOV i f)
  | .config c => some (s.configure c)
  | .clouds l => some { s with clouds := l }
  | .px4 p => some { s with px4 := p }
  | .mission v => some { s with mission_speed := v }
  | .run now => s.run Q now

end Avoidance
