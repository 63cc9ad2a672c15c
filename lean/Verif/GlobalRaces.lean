import Verif.NodeletRaces

/-!
# Data shared by the threads of the global planner node and of the landing planner node
(global_planner/src/nodes/global_planner_node.cpp 47-61, 106-433, global_planner/src/library/global_planner.cpp,
global_planner/include/global_planner/analysis.h 100-130, avoidance/src/avoidance_node.cpp 52-80;
safe_landing_planner/src/nodes/safe_landing_planner_node.cpp 40-118, 207-246)

Model only.  Branches and loop exits are nondeterministic, so absence of races is proved for more executions than the nodes have;
for the presence of races no branch is taken that the code does not have.
-/

namespace Avoidance
open AccProg

/-! ## The global planner -/

/-- Threads of the global planner node: `main` in `ros::spin` (global_planner_node_main.cpp 11), the spinners of the two timers
(global_planner_node.cpp 47-61), and the one that publishes the status (avoidance_node.cpp 29-31). -/
inductive GThr where
  | spin | cmdLoop | planner | statusLoop
deriving DecidableEq

/-- `mutex_`, global_planner_node.h 54. -/
inductive GMtx where
  | map
deriving DecidableEq

/-- Data shared between threads.
* of the node (global_planner_node.h 49-110): `lastPos`: `last_pos_`; `follow`: `current_goal_`, `last_goal_`, `path_`; `speed`: `speed_`;
  `lastWpTime`: `last_wp_time_`; `travelled`: `actual_path_`; `clicked`: `last_clicked_points`; `waypoints`: `waypoints_`; `hover`: `hover_`;
* of the planner (global_planner.h 45-100): `octree`: `octree_` and what it points to, `octree_resolution_`; `riskCache`: `risk_cache_`;
  `heurCache`: `heuristic_cache_`, `bubble_risk_cache_`; `occupied`: `occupied_`; `visitor`: `visitor_`; `position`: `curr_pos_`, `curr_yaw_`;
  `velocity`: `curr_vel_`; `goal`: `goal_pos_`, `going_back_`, `goal_is_blocked_`; `back`: `path_back_`; `currPath`: `curr_path_`,
  `curr_path_info_`, `path_cells_`; `params`: the parameters that can be reconfigured, and `overestimate_factor_`;
* of the avoidance node: `status`: `companion_state_`. -/
inductive GLoc where
  | lastPos | follow | speed | lastWpTime | travelled | clicked | waypoints | hover
  | octree | riskCache | heurCache | occupied | visitor | position | velocity | goal | back | currPath | params
  | status
deriving DecidableEq

/-- `getSingleCellRisk`, global_planner.cpp 133-161. -/
def gSingleRisk : AccProg GMtx GLoc := seqs [rd .octree, oneOf [seqs [rd .octree, rd .occupied, rd .params]]]

/-- `getRisk(Cell)`, global_planner.cpp 181-194: a cell not asked for before is entered. -/
def gRisk : AccProg GMtx GLoc :=
  seqs [rd .riskCache, oneOf [seqs [gSingleRisk, rd .octree, rd .params, .star gSingleRisk, wr .riskCache]]]

/-- `getHeuristic`, global_planner.cpp 312-332: `seen_count_[..]` enters cells not seen before. -/
def gHeuristic : AccProg GMtx GLoc := seqs [rd .heurCache, rd .params, oneOf [gRisk], oneOf [wr .visitor], wr .heurCache]

/-- `setGoal`, global_planner.cpp 42-48. -/
def gSetGoal : AccProg GMtx GLoc := seqs [wr .goal, wr .heurCache]

/-- `octomapFullCallback`, global_planner_node.cpp 264-277, with `updateFullOctomap`, global_planner.cpp 69-76. -/
def gMapCallback : AccProg GMtx GLoc :=
  .guarded .map (seqs [rd .lastWpTime, oneOf [seqs [wr .lastWpTime, wr .riskCache, wr .octree]]])

/-- `positionCallback`, global_planner_node.cpp 205-240, with `setPose`, global_planner.cpp 30-39. -/
def gPositionCallback : AccProg GMtx GLoc :=
  seqs [wr .lastPos, wr .position, rd .goal, oneOf [wr .back],
    oneOf [seqs [wr .lastPos, wr .travelled]],
    rd .follow, oneOf [seqs [rd .lastPos, rd .speed, oneOf [wr .follow]]]]

/-- `clickedPointCallback`, global_planner_node.cpp 241-249, with `printPointStats`, analysis.h 102-133. -/
def gClickedCallback : AccProg GMtx GLoc :=
  seqs [rd .params, gRisk, gRisk, .star gSingleRisk, rd .goal, gHeuristic, rd .octree, oneOf [rd .occupied], rd .position, wr .clicked]

/-- The callbacks in the global queue: maps, positions, velocities (201-203), clicked points (if there are any), goals (251-261), clouds
(280-305, the loop 292-298), reconfiguration (158-199). -/
def gCallbacks (clicks : Bool) : AccProg GMtx GLoc :=
  oneOf ([gMapCallback, gPositionCallback, wr .velocity,
    seqs [rd .params, gSetGoal], seqs [rd .goal, oneOf [gSetGoal]],
    .star (wr .occupied), wr .params] ++ if clicks = true then [gClickedCallback] else [])

/-- `cmdLoopCallback`, global_planner_node.cpp 322-333, with `publishSetpoint` 390-431 and `checkFailsafe` (avoidance_node.cpp 60-80);
`speedup` is `use_speedup_heuristics_`. -/
def gCmdLoop (speedup : Bool) : AccProg GMtx GLoc :=
  .star (seqs [wr .hover, rd .lastWpTime, oneOf [wr .status], wr .hover,
    rd .follow, rd .lastPos, rd .params,
    if speedup = true then seqs [gRisk, rd .params] else .skip,
    rd .params, wr .speed, rd .follow, rd .lastPos])

/-- The searches of `findPath` (430-480) and what they ask for: legality, cost and heuristic of moves (`visitor_` is filled in
`perNeighbor`); `max_iterations_` and `overestimate_factor_` are written. -/
def gFindPath : AccProg GMtx GLoc :=
  seqs [rd .position, rd .velocity, rd .params, rd .goal, wr .params,
    .star (seqs [wr .visitor, rd .params, gRisk, rd .position, rd .velocity, gHeuristic]),
    oneOf [wr .params]]

/-- `getGlobalPath`, global_planner.cpp 484-511, with `setPath` 51-62. -/
def gGlobalPath : AccProg GMtx GLoc :=
  seqs [rd .position, rd .goal, gSingleRisk, rd .params, oneOf [gRisk],
    oneOf [wr .goal, seqs [gFindPath, oneOf [seqs [gRisk, wr .goal], seqs [.star gRisk, rd .params, wr .currPath]]]]]

/-- `popNextGoal`, global_planner_node.cpp 113-124, with `stop`, global_planner.cpp 534-537. -/
def gPopNextGoal : AccProg GMtx GLoc :=
  seqs [rd .waypoints, .choice (seqs [wr .waypoints, gSetGoal]) (seqs [rd .goal, oneOf [seqs [rd .position, gSetGoal, rd .position, wr .currPath]]])]

/-- `plannerLoopCallback`, global_planner_node.cpp 335-355, with `planPath` 127-144, `setIntermediateGoal` 147-155 and `publishPath` 369-382. -/
def gPlannerLoop : AccProg GMtx GLoc :=
  .star (.guarded .map (seqs [rd .goal, rd .position, oneOf [gPopNextGoal],
    rd .octree, gGlobalPath, rd .params, oneOf [seqs [rd .currPath, oneOf [seqs [rd .goal, wr .waypoints, gSetGoal]]]],
    rd .waypoints, oneOf [seqs [rd .goal, rd .travelled, rd .params]],
    rd .currPath, rd .position, .star gRisk, wr .follow,
    rd .params, .star (seqs [gRisk, rd .params, rd .position, rd .velocity]), wr .follow]))

/-- All threads; `checkFailsafe` writes what the status loop (avoidance_node.cpp 45-58) reads. -/
def globalAcc (speedup clicks : Bool) : GThr → AccProg GMtx GLoc
  | .spin => .star (gCallbacks clicks)
  | .cmdLoop => gCmdLoop speedup
  | .planner => gPlannerLoop
  | .statusLoop => .star (rd .status)

/-! ## The landing planner -/

/-- Threads of the landing planner node: `main`, the worker, and the spinner of the timer (which also calls the callbacks of the
global queue, safe_landing_planner_node.cpp 86; nothing else does). -/
inductive LThr where
  | main | worker | cmdLoop
deriving DecidableEq

/-- `cloud_msg_mutex_`, `transformed_cloud_mutex_`. -/
inductive LMtx where
  | cloudMsg | transformed
deriving DecidableEq

/-- `pointers`: the pointers to mutexes and condition variable; `message`: `newest_cloud_msg_`; `flag`: `cloud_transformed_`;
`cloud`: `cloud_` of the planner; `rawGrid`: `raw_grid_`; `pose`: `current_pose_`, `previous_pose_`; `grids`: the grids of the planner;
`config`: the parameters; `status`: `status_msg_` (safe_landing_planner_node.hpp 44-105, safe_landing_planner.hpp 75-110). -/
inductive LLoc where
  | pointers | message | flag | cloud | rawGrid | pose | grids | config | status
deriving DecidableEq

/-- `startNode`, safe_landing_planner_node.cpp 67-79, after the worker has been started (line 69). -/
def landMain : AccProg LMtx LLoc := seqs [wr .pointers, wr .pointers, wr .pointers]

/-- `pointCloudTransformThread`, safe_landing_planner_node.cpp 207-246; waiting for the condition variable releases and takes the mutex. -/
def landWorker : AccProg LMtx LLoc :=
  .star (seqs [rd .pointers, .guarded .cloudMsg (rd .pointers), once .cloudMsg,
    .star (seqs [rd .flag, rd .pointers, .guarded .cloudMsg (rd .message), oneOf [seqs [rd .pointers, .guarded .transformed (seqs [wr .flag, wr .cloud])]]]),
    rd .flag])

/-- Callbacks: reconfiguration (40-44), positions (46-50), clouds (52-59), raw grids (61-65). -/
def landCallbacks : AccProg LMtx LLoc :=
  oneOf [wr .config, seqs [rd .pose, wr .pose], seqs [.guarded .cloudMsg (wr .message), .skip],
    .guarded .transformed (seqs [wr .rawGrid, wr .flag])]

/-- `cmdLoopCallback`, safe_landing_planner_node.cpp 81-118. -/
def landCmdLoop : AccProg LMtx LLoc :=
  .star (seqs [wr .status, .star (seqs [rd .flag, landCallbacks, rd .config, oneOf [wr .status]]),
    rd .flag, rd .config, oneOf [wr .status], rd .pose, wr .grids,
    .guarded .transformed (seqs [rd .cloud, rd .rawGrid, rd .config, wr .grids, wr .flag]),
    rd .grids, rd .pose, rd .config, oneOf [rd .status]])

/-- All threads. -/
def landAcc : LThr → AccProg LMtx LLoc
  | .main => landMain
  | .worker => landWorker
  | .cmdLoop => landCmdLoop

end Avoidance
