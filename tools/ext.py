def S(i, statement, title=None, quantifier=None):
    d=P[int(i[1:])-1]; d['statement']=statement
    if title: d['title']=title
    if quantifier: d['quantifier']=quantifier
S("C21","checkFailsafe: with data and up-time over the termination timeout (15 s) the status becomes FLIGHT_TERMINATION; otherwise with data over 0.5 s and up-time over 5 s it becomes CRITICAL and hover is requested; otherwise it becomes ACTIVE unless hover is requested. During start-up there is never an alarm. While the data only gets older, a run of checks only escalates; once hover is requested the watchdog never returns to ACTIVE by itself. Termination is not final: with fresh data and no hover request the status is ACTIVE again.")
S("C23","The mission speed used is that of the last DO_CHANGE_SPEED item at or before the first current item of the mission; later items have no effect; with none, or without a current item, the previous value stays. (Airspeed items are accepted although the comment says ground speed.)")
S("C24","With at least one sensor cloud, every point of the processed cloud is either a new input point strictly between the minimum and maximum sensor range whose 2-degree cell has received the configured number of points, or a remembered point inside the maximum range, younger than the maximum age and outside the current field of view; there is at most one point per 2-degree cell; and no cell that qualifies is left out. With a minimum of zero points per cell everything is dropped (shown).")
S("C26","compressHistogramElevation stores, per azimuth, the smallest positive distance among the rows within 12 degrees of the horizon whose obstacle is less than 1 m above or below the vehicle, and 0 exactly if there is none; all other rows are empty.")
S("C29","For every grid and step size the coarse-to-fine interpolation of getCostMatrix assigns every cell without an out-of-range write, leaves sampled cells at their exact cost and gives every other cell a value between the two samples that enclose it; the whole cost matrix is finite and non-negative and charges at least the full obstacle cost in every sampled column, hence of every obstacle within 45 degrees of the horizon. Obstacles in columns that are not sampled (high elevations) have no influence (shown).")
S("C31","getSetpointFromPath never reads outside the path; it succeeds on a path of three or more nodes exactly if the distance travelled since the path was computed lies strictly inside one of its segments (or is 0), and then the setpoint is the point of the path at that arc length; a two-node path always gives its goal; fewer nodes and travelled-out paths are rejected. A vehicle exactly at an interior node is rejected although the path is not exhausted (shown).")
S("C34","The reference point computed in determineStrategy is the goal itself exactly when the goals coincide in the plane or the vehicle is closer to the mission line than the cruise speed, and otherwise, at goal height, the orthogonal projection of the position onto the line through the two goals: no point of the line is closer.")
S("C35","The look-ahead tree is rooted at the vehicle; every other node is a child of an earlier expanded node, one step away in one of its candidate directions; any two nodes are at least 0.2 m apart; no node is expanded twice, at most n_expanded_nodes are expanded, with at most children_per_node children each; expansion always continues with the cheapest open node in range. The returned path follows parents to the vehicle, so its construction terminates, with consecutive points one step apart. With at least one child per node and a goal that is not exactly at a place of the tree (of countably many) nothing is undefined; 0 children per node, which the configuration allows, is undefined (shown).")
S("C36","Every simulated trajectory has one state per started step; each state follows from its predecessor by exact constant-jerk motion within the jerk limit and at most one step long, constant-jerk integration composes over time, the velocity aimed at respects the horizontal and vertical limits, and the acceleration stays within the limit (or the start acceleration). The states need not cover the requested duration, and a zero goal vector gives NaN (both shown).")
S("C37","The mode of the local waypoint generator follows the documented rules in every cycle; every emitted transition is in the table; a loiter request that lasts two cycles is honoured from every mode, kept while it lasts and left in the first cycle without it; in loiter the hover position stays fixed; in offboard mode below the goal altitude the altitude is changed first, vertically. Findings shown: one cycle of delay; during landing the setpoint of other modes is stale; the horizontal brake setpoint is never published.")
S("C38","The speed of the waypoints never exceeds the distance to the goal nor the largest cruise speed requested so far (at least the 2 m/s used initially), in every run; the speed-adapted waypoint lies in the direction of the chosen waypoint at that distance (unless that is within 10 cm); it decays when the waypoint is outside the field of view.")
S("C39","With smoothing disabled the published position is the speed-adapted waypoint and the yaw the desired one; with smoothing the position and the yaw move by the filter's integrated velocity, and the filter stands still exactly if it is at the target with velocity zero.")
S("C41","A round of the command loop sends a setpoint exactly if the planner's data is young enough or the node has just started; the status is then ACTIVE. Expected in addition: in the critical state the vehicle is commanded to hover. In the code the hover flag is cleared at the start of each round, so a loiter caused by missing data is never commanded, and flight termination is revoked by new data (both shown).", quantifier="every sequence of rounds, data ages and statuses")
S("C42","With any number of cameras, no reachable state of the local planner nodelet has a set of threads that wait only for mutexes held by each other (all nine kinds of mutex, all threads).")
S("C45","Before smoothing, a cell is landable exactly if it has at least the required number of points and its standard deviation is at most the threshold; after smoothing exactly if at most the allowed number (at least 1) of cells of its neighbourhood differ in mean height by more than the threshold and more than the required number of its neighbourhood are dense and flat. Findings shown: a cell without any point can be landable; limits of 0 block or permit everything; cells outside the grid count as height 0.")
S("C46","A run of the planner leaves in every cell alpha*old + (1-alpha)*new of mean and variance, hence values between old and new for alpha in [0,1]; in every history grids of different size are never combined and no access is out of range. Findings shown: the filter starts from 0, so rough ground passes as flat at start-up; replayed grids of another size are combined; the grid published is that of the run before.")
S("C47","In every run, the landing state is entered only from the way to the landing site, within the acceptance radius of the goal, after a grid evaluation that found a whole landing patch of cells with enough evidence of being landable; once landing, the state is left only by a reset; and the place is that patch. The last part is false of the code when a goal or mode message arrives between evaluation and landing (shown); it is proved when none does.")
S("C48","Grid evaluation is free of out-of-range accesses whenever the patch fits into the grid and goes to the landing site exactly if the central patch or one at 1..n/2-s-1 cells in one of eight directions consists of cells that all passed. A grid smaller than the patch, and the visualisation of grids of other than the default size, go out of range (shown).")
S("C49","If a message disarms the vehicle or reports a mode other than AUTO.LAND and AUTO.MISSION, the next iteration sends nothing and puts the landing state machine into its initial state, whatever messages arrive in between; without a landing waypoint in force all evidence and decisions are forgotten. The vertical velocity of an interrupted altitude change survives the reset (shown).")
S("C51","The landing height is the rank-round(0.8 n) order statistic of the cell means of the patch; it is computed without leaving the grid or the list exactly if the patch fits and the patch size is at least 1 (0, which the parameter allows, is undefined).")
S("C52","The cell of a position is the one and only cell whose box contains it; centres lie in their cells; the ten neighbours are exactly the adjacent cells and the relation is symmetric; the grid distance is a metric in the plane and never exceeds the length of a walk over neighbours; the goal tests for plan and position are consistent. The neighbour in yaw direction is two cells away, and flow neighbours are undefined for robots larger than a map cell (shown).")
S("C53","The search always terminates, within the iterations allowed; whenever it reports success the path begins with the given parent and the start, every further cell is a legal neighbour move (below maximum altitude and maximum risk), no node repeats, and the last cell lies within the goal.")
S("C54","simplifyPath returns points of the input in the same order, with the same first two points and the same last point (repeated once to decelerate); a point is removed exactly if the direct edge costs at most margin times the two edges it replaces; without turning costs n passes raise the cost at most by margin^n. The node passes margin and iterations in the wrong order, and the new edge is not checked for legality (both shown).")
S("C55","The searches of one plan follow the schedule of factors (f-1)/4+1 from the maximum down to the minimum, together stay within the configured iterations, and the result is the path of the last successful one; planning ends whenever the minimum factor exceeds 1 or the vehicle is away from the goal. With a minimum of 1 and the start inside the goal it never ends; with maximum below minimum no search is made (shown).", title="Repeated searches: schedule, result and termination")
S("C56","While a mission is flown the recorded way is the sequence of cells visited without immediate repetition, from the first to the current cell; goBack follows it in reverse, at least six steps and to the first cell after that with risk below one half. Nothing is recorded before the first goal and one cell is forgotten when part of the way is flown back (shown).")
S("C57","A risk answer equals the risk recomputed from the current map as long as only maps and queries arrive, and in every history it is the risk the cell had at some moment since the last map. Obstacle points and reconfigurations do not reach cells asked for before, and a map that is not an OcTree crashes the planner (both shown).")
S("C58","The goal of the mission survives intermediate goals: in every run of positions, velocities and planning cycles it stays at the bottom of the goal stack and comes back when the intermediate goals are reached or blocked; intermediate goals are set exactly for poor paths of more than ten cells. Violations shown: a blocked goal with an empty stack is given up for good (also in the first two seconds before a map); a new user goal does not clear the stack; an altitude-only change is ignored; repeated flight-controller goals make the stack grow without bound.", title="The mission goal survives intermediate goals", quantifier="every sequence of positions, goals, maps and planning cycles")
S("C59","Two accepted full-map updates are never closer than 0.2 s, and no map that arrives at least 0.2 s after the last accepted one is dropped.")
S("C60","posterior of two probabilities is a probability below 1, symmetric and monotone; the altitude prior is read inside its table for every cell; the risk of a cell is non-negative, at least its own risk and bounded by 1 + 7 flow. Findings shown: 0.5 is not neutral, the prior below ground is the smallest instead of the largest, and the risk heuristic reads outside its table below ground and from layer 26.", title="Risk: Bayes update, altitude prior and cell risk")
S("C61","Every point of a Bezier turn lies in the triangle of its control points and the curve starts and ends in the outer two; smoothing a path keeps its ends, gives 11(n-2)+2 poses, each in the triangle of three consecutive positions, and consecutive turns join with the same tangent along the common edge; the accelerate-cruise-decelerate flight between two points keeps the speed and acceleration limits. The acceleration functions ignore the duration (shown).")
LP="local_planner/src/nodes/"; SL="safe_landing_planner/src/nodes/"
W="all histories"
p("Yaw and pitch survive the quaternion","Yaw and pitch written into a quaternion as roll-pitch-yaw are read back unchanged, for every roll, every pitch strictly between the poles and every yaw in (-pi,pi]; in particular the yaw of a pose built by createPoseMsg is read back.","all angles","continuous domain",[C+": getYawFromQuaternion, getPitchFromQuaternion, createPoseMsg"])
p("Histogram columns and field of view","histogramIndexYawInsideFOV does not depend on the vehicle position; it tests exactly the two borders of the azimuth column, turned into the body frame.","all columns, fields of view, positions and yaws","continuous domain",[C+": histogramIndexYawInsideFOV"])
p("Published obstacle distances are fresh","While CP_DIST is positive every iteration publishes obstacle distances computed in that iteration; while it is negative none are published; in every run published distances stem from an earlier or current iteration. If CP_DIST becomes 0 or NaN the old distances are published for ever (shown).","every sequence of iterations and parameter values",W,[LP+"local_planner.cpp: runPlanner, updateObstacleDistanceMsg", LP+"local_planner_nodelet.cpp: publishLaserScan"])
p("Histogram image","A pixel of the published histogram image always fits a byte, is 0 without an obstacle, and a nearer obstacle is never darker than a farther one.","all distances and sensor ranges","continuous domain",[LP+"local_planner.cpp: generateHistogramImage"])
p("Setpoint smoothing converges","With a constant target near the goal the smoothed position converges to the target on every axis if sqrt(P)*dt < 2*sqrt(2)-2, whatever the filter state; beyond that bound it diverges (at the default P = 10: cycles longer than 0.26 s, shown).","all filter states, gains and cycle times","limit over infinitely many steps",[LP+"waypoint_generator.cpp: smoothWaypoint"])
p("The planner flies to the current goal","In every history of clicked goals, goal topics, autopilot messages and planning cycles, the planner's goal is the node's current goal whenever no goal is pending, and each planning cycle hands over the latest goal with its predecessor - unless an autopilot message with the special command repeats a known item, after which the two can differ for good (shown).","every sequence of goal messages and planning cycles",W,[LP+"local_planner_nodelet.cpp: updateGoalCallback, clickedGoalCallback, fcuInputGoalCallback, updatePlanner"])
p("Landing descent is vertical","From the start of landing until a reset every iteration sends one setpoint straight down at 0.7 m/s at a fixed horizontal position and yaw; during the altitude change above the landing area the speed points to the loiter height. Below it the vehicle is sent further down (shown).","every run",W,[SL+"waypoint_generator.cpp: runLand, runAltitudeChange"])
p("Exploration spiral","In every run the exploration goals of the landing waypoint generator form a spiral determined by the count of goals so far, and every iteration is free of undefined behaviour whenever the patch fits into the received grid and has at least one ring of cells.","every run",W,[SL+"waypoint_generator.cpp: runEvaluateGrid, runGoTo"])
p("The grid message is understood","Whatever grid the landing planner publishes, receiving it causes no out-of-range access whatever grid was stored before, and the stored grid has the published content and size.","all grids","all sizes and contents",[SL+"safe_landing_planner_node.cpp: publishSerialGrid", SL+"waypoint_generator_node.cpp: gridCallback"])
p("Landing planner status and cloud hand-over","After each command loop of the landing planner the status is termination, critical or active exactly by the age of the last finished loop and of the node; messages are at most 0.2 s plus loop and planner times apart; every run of the planner uses a new transformation, in order, of a received message, undisturbed by the worker, under every thread interleaving. Expected further: each run uses a new message and every message wakes the worker. Violations shown: one message can feed the planner for ever, a message can be lost, the node is silent for the whole termination time while waiting, termination is revoked, and start-up races on null pointers.","every run and every interleaving of worker and command loop","all interleavings and unbounded runs",[SL+"safe_landing_planner_node.cpp: cmdLoopCallback, checkFailsafe, publishSystemStatus, pointCloudTransformThread, pointCloudCallback, startNode"])
p("The global search is complete","If the search fails before using up the iterations it was given, no sequence of legal moves leads from the start to the goal, whatever the heuristic and the order of the queue.","all maps, heuristics, queue orders","quantifies over all paths",["global_planner/include/global_planner/search_tools.h: findSmoothPath"])
p("Bounded suboptimality","If the heuristic overestimates no move by more than a factor eps and the queue returns a cheapest entry, the path found costs at most eps times any legal path; for the planner with turn, risk and speed-up heuristics off, eps is the overestimation factor; for the last-resort cell search 1.00299 times it. The turn heuristic overestimates even at factor 1 (shown).","all maps, starts and goals","quantifies over all paths",["global_planner/include/global_planner/search_tools.h: findSmoothPath", GP+": getHeuristic"])
p("Turning costs","The rotation charged between two moves is the turn between them in units of 45 degrees. Proved except when the first move is along x and the second along y, which is free, while the same turn from y to x is charged; vertical moves after y are charged a quarter turn (shown).","all pairs of moves","all integer moves",["global_planner/src/library/node.cpp: getRotation, getXYRotation"])
p("No planned edge crosses an occupied cell","With the shipped limits no cell reported occupied lies on the planned path: every cell crossed by an accepted edge (shorter than 5 cells) was examined or is bounded in risk. Violations shown: from layer 9 on no cell is ever called occupied and edges into mapped obstacles are accepted; steep edges miss a cell.","all maps and edges","all segments and all cells they cross",["global_planner/src/library/node.cpp: getCells", GP+": isLegal, getRisk"])
p("Last-resort path","Whenever find2DPath reports a path it leads up to the maximum altitude, over to the goal and down to it, in unit steps, through cells that are not too risky - except the cells above start and goal and the goal, whose risk is never looked at; it flies half a cell above the permitted altitude (shown).","all maps","quantifies over all maps",["global_planner/include/global_planner/search_tools.h: find2DPath, findPathOld"])
p("Position setpoint of the global planner","Within one metre of the current goal the goal is sent, otherwise the point at distance speed towards it; the speed lies between default and maximum, falls with risk and is the default above the threshold. Violations shown: speeds above 1 overshoot the goal; at the goal the setpoint is NaN; the switch use_risk_based_speedup has no effect.","all positions, goals, risks and parameters","continuous domain",[GN+": publishSetpoint"])
p("The planned path is followed in order","After a path is set, whatever positions and commands arrive, the last, the current and the coming goals are consecutive poses of that path; a goal is left only when closer than the speed; a vehicle that reaches each goal gets to the end. The yaw test is void except at exactly half a turn (shown).","every sequence of positions and commands",W,[GN+": setCurrentPath, positionCallback, isCloseToGoal"])
p("What is flown after planning","A successful plan is followed from its second cell on along the simplified path. Expected: after a failed plan the vehicle goes on, after STOP it stops. In the code a failed plan restarts the old path from its beginning, and STOP followed by a failed plan leaves the old goal in force (shown).","every map and planner state",W,[GN+": plannerLoopCallback, planPath, publishPath, popNextGoal"])
p("Path message","The published path has one pose per cell, in order, at the cell's centre, with the yaw of the next horizontal direction, or that of the pose before for vertical moves and at the end.","all paths","all lengths",[GP+": getPathMsg, nextYaw"])
p("Each step of the landing procedure","Every iteration of the landing state machine without a pending reset sends exactly one setpoint, determined by its phase (waypoint, vertical speed, loiter position, landing site, descent), and moves to the next phase exactly under the phase's condition: at the undecided landing waypoint; at the loiter height; after more than 20 grids; after the evaluation, to the first landable patch in the search order or back to exploring; at the landing site. Waypoint messages, poses and parameters are taken over exactly under their validity conditions.","all states of the generator, all messages","all states and continuous inputs",[SL+"waypoint_generator.cpp: runGoTo, runAltitudeChange, runLoiter, runEvaluateGrid, runGoToLand", SL+"waypoint_generator_node.cpp: trajectoryCallback, positionCallback, dynamicReconfigureCallback"])
p("The landing procedure gets there","From an undecided landing waypoint within the acceptance radius, over ground whose middle patch is landable and flat up to a tolerance, in range of the loiter height, the node is landing after 25 grids, without undefined behaviour, whatever patch size, filter constant and threshold with enough evidence in 20 sightings. A decision taken before a reset that is revoked within one cycle blocks it for good (shown).","all grids, positions and parameters meeting the conditions","unbounded sizes and continuous inputs; liveness",[SL+"waypoint_generator.cpp: calculateWaypoint, updateSLPState", SL+"waypoint_generator_node.cpp: gridCallback, stateCallback", SL+"safe_landing_planner_node.cpp: publishSerialGrid"])
p("Moves of the global planner: offered, accepted, cost","The search considers exactly the moves to adjacent cells (or, for nodes with speed, those that continue the last displacement up to one cell), accepts exactly those that end below the maximum altitude and whose risk - the average over the cells sampled along the move, times its length - is below the maximum, and charges horizontal distance, climb, descent, risk and squared turn with their factors, turns double close to the fast vehicle. The summary of a found path reports the cost the search minimised and never a blockage; the published risks are those of its cells.","all nodes, maps, cost parameters, positions and velocities","all continuous maps and parameters, all paths",[GP+": getOpenNeighbors, isLegal, getEdgeCost, getEdgeDist, getRisk, getPathInfo, getEdgeInfo, getPathWithRiskMsg","global_planner/src/library/node.cpp: getCells, getNeighbors, getRotation"])
p("Recorded grids are replayed as they were","The published grid message holds, row by row, mean, standard deviation and number of points of every cell of the grid last completed; processing a well-formed message gives exactly these cells (variance the square of the deviation) in a grid of the message's size, so that recording a grid and replaying it reproduces it; each processed cloud advances the sequence number by one.","all planner states, grid sizes and messages","arrays of every size",["safe_landing_planner/src/nodes/safe_landing_planner.cpp: processRawGrid, processPointcloud","safe_landing_planner/src/nodes/safe_landing_planner_node.cpp: publishSerialGrid"])
p("A configuration of the landing planner takes effect with the next run","After any history, a configuration with any further events but no other configuration is in effect from the next run on: the grids have the configured size and cell size, the decision uses exactly the configured thresholds and smoothing, and grids are not emptied again while the sizes stay.","all event histories","histories of every length",["safe_landing_planner/src/nodes/safe_landing_planner.cpp: dynamicReconfigureSetParams, runSafeLandingPlanner, isLandingPossible"])
p("A plan is made from the last inputs","After any history of poses, goals, configurations, sensor clouds and runs, the plan of a run is the look-ahead tree for exactly the last configuration, pose and goal given, around the obstacle points of that run, and carries the time of the run; if no direction shows an obstacle the old path and its time are kept. With a configured planner, at least one cloud and a goal that is not exactly at a place of the tree a run is free of undefined behaviour. Every configuration message moves the goal to the configured height (shown).","all event histories","histories",[LP+"local_planner.cpp: runPlanner, determineStrategy, create2DObstacleRepresentation, setState, setGoal, dynamicReconfigureSetParams, getAvoidanceOutput",LP+"star_planner.cpp: dynamicReconfigureSetStarParams, buildLookAheadTree"])
p("An obstacle that was seen is charged and avoided","If the sensors report enough points in one 2-degree cell up to 48 degrees above or below the horizon, the run makes a plan in which that direction costs more than an obstacle at the end of the sensor range, whatever else was seen or remembered; and if enough directions are cheaper, neither the nodes next to the vehicle nor the first leg of the path lie in that direction.","all histories, clouds, poses, goals and cost parameters","continuous domain, histories",[LP+"planner_functions.cpp: processPointcloud, generateNewHistogram, getCostMatrix, getBestCandidatesFromCostMatrix",LP+"star_planner.cpp: buildLookAheadTree",LP+"local_planner.cpp: runPlanner"])
p("What the local planner remembers","After any history every remembered obstacle point was measured in range at some run and its age is exactly the time from that run to the last; a point not measured by the last run was younger than the maximum age at the run before, is in range and outside the fields of view. While the vehicle hovers, a remembered point outside the fields of view stays, and its direction stays occupied in every plan, until its cell has enough new points or it has become too old.","all event histories","histories",[LP+"planner_functions.cpp: processPointcloud",LP+"local_planner.cpp: runPlanner"])
p("Shared data is never accessed concurrently","No interleaving of the nodelet's threads (planner worker, command loop, spinner, status loop, transform threads, transform listener, reconfiguration server) reaches a state where two of them are about to access the same datum, one of them writing. Proved for camera data, transform buffers, the waypoint generator, the planner's own data, the autopilot parameters and the time of the last plan; violated (every race is reached) for position, velocity, vehicle state, goal, new-goal flag, planner goal, planner position, planner timeout, waypoint, mission speed, position flag and status.","every interleaving, any number of cameras","all schedules",[LP+"local_planner_nodelet.cpp: all callbacks and threads"])
p("The planner is woken up","Every planning run uses complete frames of every camera; as long as every camera keeps sending clouds whose transforms are available and every thread keeps being scheduled, every camera's clouds are transformed again and again and the planner plans again and again, whatever notifications are lost. A single cloud that arrives while its thread is busy, or the last frame to be transformed while the worker is busy, is not noticed until the next message (shown).","every fair infinite schedule, any number of cameras","liveness over infinite schedules",[LP+"local_planner_nodelet.cpp: pointCloudCallback, pointCloudTransformThread, threadFunction"])
p("What a setpoint is made from","After any history of vehicle data, goals, parameters, point clouds and timer rounds, a round of the command loop sends a setpoint exactly if the last plan was handed over at most half a second ago (or within 5 s of the start), nothing else sends, and at most one setpoint is sent per pose. The setpoint is computed from the newest pose, velocity, vehicle state and smoothing parameters, the goal in force (launch file, clicked point, accepted topic, or the waypoint announced by the autopilot; others are ignored), the fields of view of the last snapshot, and the plan handed over last, which one run of the planner made from the newest data at its start and a cloud of every camera. Findings shown: the previous goal of the first plan is uninitialised memory; a reconfigured goal height changes the planner's goal but not the setpoints'.","all event histories, all states of uninitialised memory","histories across four threads and three objects",[LP+"local_planner_nodelet.cpp: all callbacks, updatePlannerInfo, threadFunction, cmdLoopCallback, calculateWaypoints",LP+"local_planner.cpp",LP+"waypoint_generator.cpp"])
p("The speed asked for is within the limits","The speed of the setpoints never exceeds the larger of 2 m/s and the cruise and mission speeds given, and the unsmoothed setpoint is never farther than that from the newest position (outside landing), straight towards the chosen waypoint; with fixed acceleration and jerk limits and sensor range, the vehicle is never asked for a speed from which it could not stop within the sensor range. Violated before the first plan: nothing initialises the cruise speed, and the setpoints of an altitude change then use whatever the memory holds (shown); proved if that is not a number or within the limits.","all event histories, all uninitialised memory","histories, continuous domain",[LP+"waypoint_generator.cpp: adaptSpeed",LP+"local_planner.cpp: getAvoidanceOutput","local_planner/include/local_planner/avoidance_output.h: avoidanceOutput",LP+"local_planner_nodelet.cpp: cmdLoopCallback, threadFunction"])
p("Setpoints keep away from an obstacle that was seen","If the frames of the cameras show an obstacle with enough points in one 2-degree cell, the plan started with them ends in the newest position, and no point of the 6-degree area in which the obstacle was seen lies on the ray of its first leg (with enough cheap directions). While that plan is the newest and followed, every setpoint is one metre from the newest position towards a point no farther from the end of that leg than the vehicle could have flown since the plan. Expected for all setpoints; violated: without a usable path the node flies straight at the goal, whatever was seen - before the first plan is handed over in the first five seconds, with the obstacle in the way and already taken over by the worker (shown), and when a plan is used up although it counts as new (shown).","all event histories, frames, poses, goals and parameters","histories, continuous domain, three objects and two threads",[LP+"local_planner_nodelet.cpp: updatePlannerInfo, threadFunction, cmdLoopCallback, calculateWaypoints",LP+"local_planner.cpp: runPlanner",LP+"waypoint_generator.cpp: runTryPath, runDirect",LP+"planner_functions.cpp: getSetpointFromPath, processPointcloud, getCostMatrix"])
p("An obstacle that was seen is reported to the autopilot","With CP_DIST above 0 every plan sends exactly one obstacle distance message of 60 bins of 6 degrees, none while it is below 0, and nothing else sends one. A bin no camera has in view is unknown; a bin in view shows the smallest mean distance of the four 6-degree rows next to the horizon in which points are less than a metre above or below the vehicle, and reads free (maximum range and a centimetre) if there is none. So an obstacle seen near the horizon in a bin in view is shown with a distance within the sensor range, and every distance shown is backed by measured points in that direction at most and at least that far. Expected: the distance of the nearest obstacle. Violated: points at 1 m and 13 m in one 6-degree cell show 7 m (shown); a remembered obstacle 15 cm away makes its bin read free (shown).","all event histories, frames, poses and parameters","histories, continuous domain, three objects",[LP+"planner_functions.cpp: compressHistogramElevation, processPointcloud, generateNewHistogram",LP+"local_planner.cpp: create2DObstacleRepresentation, updateObstacleDistanceMsg",LP+"local_planner_nodelet.cpp: updatePlannerInfo, threadFunction, publishLaserScan"])
p("The status reported to the autopilot","After any history of vehicle data, parameters, clouds and timer rounds the reported status is BOOT until the first round of the command loop; then that of the last round: FLIGHT_TERMINATION if no plan was handed over for more than 15 s (and more than 15 s after the start), else CRITICAL if none for more than half a second (and more than 5 s after the start), else ACTIVE; and FLIGHT_TERMINATION while the loop waits for a position longer than configured, with no position since the last round. Nothing else changes it. ACTIVE implies that the last round sent a setpoint on a new plan (or within 5 s of the start); it is not latched. Finding shown: while the loop waits for a position no plan can be handed over, so a gap of half a second in the positions suspends the setpoints although cameras and planner work.","all event histories","histories across three threads",[LP+"local_planner_nodelet.cpp: cmdLoopCallback, threadFunction, setSystemStatus","avoidance/src/avoidance_node.cpp: checkFailsafe, setSystemStatus, publishSystemStatus"])
p("What the planner displays","After any history of calls, a run of the planner leaves a histogram image and a cost image, and publishing them writes nothing outside them. The histogram image has one byte per direction: black if no obstacle is known within sensor range, else the whiter the nearer. The cost image is that of the two cost layers whose sum the planner searched, in shares of the largest cost, with the cells of the heading, the waypoint and the adapted waypoint marked. Violated: the header of the histogram image gives 255 bytes per row where there are 60, and the heading is converted to degrees twice, so that it is marked in the wrong column for nearly every heading.","all histories, positions, waypoints, orientations","every histogram, cost matrix and pose",[LP+"local_planner.cpp: create2DObstacleRepresentation, generateHistogramImage","local_planner/src/nodes/planner_functions.cpp: generateCostImage",LP+"local_planner_visualization.cpp: publishDataImages"])
p("What is drawn around the vehicle","After any history of calls, drawing the search tree reads only nodes that exist and gives one line per expanded node, to the expanded node it was reached from; the plan is drawn as the lines between its consecutive points; each camera as four triangles that end at the sensor range; the obstacle distances as one triangle per bin, red without data, green without obstacle. Violated: the triangle of a bin is centred on its lower border, so that half of the directions of a bin are drawn in the next one.","all histories, paths, cameras, distances","every tree, path and camera",[LP+"local_planner_visualization.cpp: publishTree, publishPaths, publishRangeScan, publishFOV"])
p("Travelled path of the global planner","Of the position messages, numbers 0, 10, 20, ... are recorded, and the recorded path is published with each. The length of any path is the sum of its legs, at least the straight distance of any two of its points, and never grows when points are left out: the reported travel distance is at most that of all positions. The energy is the length plus the penalty for each metre climbed. The corners of a path are its ends and the points where the step changes; the curve through them, and its length, is that of the path (a path of one point gets it twice). The kinetic energy is never negative and 0 exactly for steps of equal size per axis. A path of three poses becomes a curve between its ends; the time of a leg is that of a uniform acceleration from rest.","all message sequences and paths","paths of any length",["global_planner/src/nodes/global_planner_node.cpp: positionCallback, plannerLoopCallback","global_planner/include/global_planner/common_ros.h: pathLength, pathEnergy, pathKineticEnergy, filterPathCorners","global_planner/include/global_planner/bezier.h: threePointBezier, getDuration"])
p("Ending the nodes","Once the destructor of the local planner nodelet has begun, it returns, with its worker, transform and camera threads ended and joined, under every schedule that is fair to these threads and in which no other thread keeps a mutex for ever; before that none of them ends. Violated: (1) the command loop keeps the waypoint mutex while it waits for a position, so without positions the destructor can wait for ever; (2) the parameter thread of the avoidance node is never told to end nor joined, so that destroying it terminates the process; (3) nobody sets the exit flag of the safe landing planner node, so that its main function never returns.","all interleavings, any number of cameras, all fair infinite runs","liveness over all schedules",[LP+"local_planner_nodelet.cpp: ~LocalPlannerNodelet, threadFunction, pointCloudTransformThread, transformBufferThread, cmdLoopCallback","avoidance/src/avoidance_node.cpp: ~AvoidanceNode, checkPx4Parameters","safe_landing_planner/src/nodes/safe_landing_planner_node.cpp: pointCloudTransformThread","safe_landing_planner/src/nodes/safe_landing_planner_node_main.cpp"])
p("Threads of the global and the landing planner","Under every interleaving of its threads, the global planner node's map is deleted and replaced only while nobody reads it, its table of risks is changed by one thread at a time, and its way back, goal stack and path belong to one thread; in the landing planner the received message, the transformed cloud, poses, grids, configuration and status are never read while being written. Violated: with use_speedup_heuristics (default) the command loop reads the map and the risks without the mutex, so that the map can be deleted under it; clicked points do the same to the risks; position, velocity, goal and its flags, the tables a new goal clears, obstacle cells, parameters, the poses being followed, speed, time of the last map, travelled path and status are read and written without any mutex; in the landing planner the flag for a transformed cloud, and the pointers to the mutexes at start-up.","all interleavings of all threads, any number of messages, both settings","races need an unlucky schedule",["global_planner/src/nodes/global_planner_node.cpp: GlobalPlannerNode, octomapFullCallback, positionCallback, clickedPointCallback, cmdLoopCallback, plannerLoopCallback, publishSetpoint","global_planner/src/library/global_planner.cpp: getRisk, getHeuristic, setGoal, updateFullOctomap, findPath","global_planner/include/global_planner/analysis.h: printPointStats","safe_landing_planner/src/nodes/safe_landing_planner_node.cpp: startNode, cmdLoopCallback, pointCloudTransformThread"])
p("From the map to the setpoint (global planner)","In every run of the global planner node - any order of positions, velocities, maps, obstacle clouds, goals, reconfigurations, planning cycles and commands - every risk used for planning is the risk of that cell in a state of the world since the last map taken; every path found leads from the predicted start cell to within the goal's radius of the goal of that cycle, each further step going below the maximum altitude with a risk below the maximum (or is a path of the last resort); the poses followed are cells of the last path found, in order, ending at its end; every setpoint lies on the ray from the reported position to the centre of such a cell, at the commanded speed between default and maximum, or is that centre if it is less than a metre away; and every planning cycle ends. Violated: the start cell is not checked, so the vehicle can be sent into a cell that is occupied in the map used for planning; when planning fails a path that is blocked in the new map is still flown; a goal that arrives during a failing search is given up without being searched for.","all histories of callbacks of the global planner node, all maps, goals, configurations in range, heuristics and queue orders","end-to-end histories of a node with a map, a cache, a search and a follower cannot be enumerated",["global_planner/src/nodes/global_planner_node.cpp: plannerLoopCallback, planPath, popNextGoal, publishPath, setCurrentPath, positionCallback, cmdLoopCallback, publishSetpoint, octomapFullCallback","global_planner/src/library/global_planner.cpp: getGlobalPath, findPath, getRisk, setGoal, updateFullOctomap","global_planner/include/global_planner/search_tools.h: findSmoothPath, find2DPath, simplifyPath"])
p("The world shown in RViz","A world file that is a list of objects is shown completely or not at all: markers are published exactly if every object is complete, of a known type and its mesh is found, one marker per object, in order, numbered from 1, with the frame, pose, size, shape and mesh of the object; model:// names resolve to the file in the first directory of GAZEBO_MODEL_PATH and then $HOME/.gazebo/models that has it; after any history of reloads marker i on the screen is object i of the last world published with at least i objects; the drone is shown at the pose received. Violated: objects removed from the file stay on the screen; a missing file counts as loaded; sockets pass for files; without GAZEBO_MODEL_PATH a null pointer is used.","all world files, environments, file systems and histories of reloads","worlds and file systems cannot be enumerated",["avoidance/src/rviz_world_loader.cpp: resolveUri, visualizeRVIZWorld, visualizeDrone, loopCallback, positionCallback","avoidance/include/avoidance/rviz_world_loader.h: world_object"])
p("What the landing planner shows","The displays of the landing planner tell the truth about its grid: one marker per cell, each covering exactly the points counted for the cell; green exactly where landing is possible; black exactly where the deviation is above its threshold or the points are too few, and otherwise different values have different colours; the cloud shown is the counted points, numbered by cell; the path shown joins consecutive positions; the landing area is green exactly where a cell of the tested disc is landable. Violated: a deviation at the threshold looks like none at all; the colours of the counter start over at 400 and mean nothing for thresholds from 200 on; the grid sent to the waypoint generator lags the one displayed by a cycle; the path has gaps; the landing area is shown half a cell off, and wrong unless the middle of the grid is cell 20.","all grids, thresholds, clouds, histories of poses and cycles","colours, grids and histories range over infinite sets",["safe_landing_planner/src/nodes/safe_landing_planner_visualization.cpp: publishGrid, publishMeanStdDev, publishCounter, HSVtoRGB, publishPaths","safe_landing_planner/src/nodes/waypoint_generator_node.cpp: landingAreaVisualization","safe_landing_planner/src/nodes/safe_landing_planner.cpp: processPointcloud"])
p("Asking about a point","Asking the global planner about a point is answered with what it plans with - the risk of the cell as the planner is answered it, the risks of the neighbouring cells, the estimate of the cost to the goal, the leaf of the map - and changes nothing: goal, path, setpoints and answers stay what they are. Violated: before the first map, or with the risk heuristic on at altitudes outside the table, the node crashes; the answer is remembered, so an obstacle that arrives afterwards does not reach the planner until the next map; with large cells the neighbours told are the cell itself; the last value told is not the risk of the cell.","all states, points, maps and sequences of callbacks","states, maps and histories range over infinite sets",["global_planner/src/nodes/global_planner_node.cpp: clickedPointCallback, printPointInfo","global_planner/include/global_planner/analysis.h: printPointStats","global_planner/src/library/global_planner.cpp: getRisk, getHeuristic, riskHeuristic"])
p("Showing the flight","What the local planner draws of its flight is what happened: for every setpoint sent there is a drawing of its three waypoints and of its velocity as an arrow from the vehicle; the lines through the waypoints join those sent one after the other and none replaces another; the pieces of the flown path join positions received one after the other and do not overlap; the colour of the arrow is the mode that made the setpoint; the points of the off-track display are those computed; drawing changes nothing. Violated: between two rounds all positions but the last two are left out, so the flown path has gaps; the first pieces start at uninitialised values; the arrow has no tip (NaN) except in a change of altitude outside offboard; the colour is that of the next mode, that of loitering is never shown; the off-track points are always NaN.","all histories of callbacks, timers and planner results","histories are unbounded and interleaved; the defects are in what is left out",["local_planner/src/nodes/local_planner_visualization.cpp: visualizeWaypoints, publishPaths, publishCurrentSetpoint, publishOfftrackPoints","local_planner/src/nodes/local_planner_nodelet.cpp: calculateWaypoints, positionCallback","local_planner/src/nodes/waypoint_generator.cpp: getOfftrackPointsForVisualization"])
p("From the cloud to the landing","The two landing nodes together: whenever the vehicle is landing or on its way to the landing site, there was a grid evaluation and a landing patch such that every cell of the patch had been measured landable (enough points, small spread, even neighbourhood) in so many distinct point clouds c that 1 - beta^c exceeds the landing threshold, all of them among twenty consecutive clouds - whatever grid messages were lost on the way. No iteration of the state machine uses a grid message twice, and no cloud, configuration or message causes an undefined access. (The clouds need not be recent: the vehicle may set out to land after eight clouds without a single point.)","all runs of the two nodes: all clouds, poses, configuration changes, autopilot messages and all losses of grid messages","the claim joins two processes over an unreliable topic; unit tests see one process at a time",["safe_landing_planner/src/nodes/safe_landing_planner_node.cpp: cmdLoopCallback, publishSerialGrid","safe_landing_planner/src/nodes/waypoint_generator_node.cpp: cmdLoopCallback, gridCallback","safe_landing_planner/src/nodes/safe_landing_planner.cpp: runSafeLandingPlanner","safe_landing_planner/src/nodes/waypoint_generator.cpp: runLoiter, runEvaluateGrid"])
p("Where the vehicle comes down","In every descent (loiter, evaluation, way to the site, landing) during which the autopilot's waypoint and its order to land stay the same, the vehicle starts its landing near a patch all of whose cells were measured landable (as C106 says): along both axes less than half a metre plus one cell from the centre of the patch as each of the counted clouds saw it, plus what the vehicle moved between that cloud and the fixing of the landing goal. If the vehicle hovers (planner pose p, position within delta of it) with unchanged grid sizes and the patch is not too small (8(1.5 cell + 0.5 + delta)^2 <= ((2s+1) cell)^2; with the default configuration: delta up to 27 cm), then the very spot under the vehicle lies in a cell that the counted clouds measured landable. (With smaller patches it need not: the acceptance radius is half a metre whatever the cell size; nor with sizes that change during the descent, since the evidence is kept as long as the number of rows is the same.)","all runs of the two nodes with all clouds, poses, messages and losses; all descents in them; all grid and patch sizes","relates the ground in the clouds of one process to the position of the vehicle some seconds later in the state machine of another",["safe_landing_planner/src/nodes/waypoint_generator.cpp: runLoiter, runEvaluateGrid, runGoToLand, withinLandingRadius","safe_landing_planner/include/safe_landing_planner/grid.hpp: resize, setFilterLimits","safe_landing_planner/src/nodes/safe_landing_planner.cpp: processPointcloud, computeGridIndexes","safe_landing_planner/src/nodes/waypoint_generator_node.cpp: trajectoryCallback, stateCallback"])
p("The global planner does not forget an obstacle","In every run of the global planner, whatever maps, goals and reconfigurations come in between, a cell counts as one in which an obstacle was seen exactly if a depth cloud had a point in it; and from the first map taken after that on, every risk of the cell used for planning is at least the full combination of the prior of its altitude with what the current map says about it - never the reduced risk of explored free space, even where the map takes the cell for free. Violated: until the next map the risk stays what was answered before; a cell the map does not know counts as unknown whatever was seen in it; and a point with a finite x and another coordinate that is not is undefined behaviour.","all runs of the node: all interleavings of clouds, maps, positions, goals, reconfigurations, planning cycles and commands; all clouds; all cells","the effect is on the risks of all later planning cycles, through two stores that are filled by different callbacks and a cache that is cleared by a third",["global_planner/src/nodes/global_planner_node.cpp: depthCameraCallback, octomapFullCallback","global_planner/src/library/global_planner.cpp: getSingleCellRisk, getRisk, updateFullOctomap","global_planner/src/library/cell.cpp: Cell"])
p("On flat ground the vehicle lands","In every run of the two landing nodes: if, from some moment on, every cloud shows ground that is flat up to a tolerance in all cells that matter for the patch in the middle of the grid, with enough points in each, then after enough clouds - a number that depends only on the filter constant, the thresholds and how wrong the filtered values were at that moment - an order to land is carried out: within the acceptance radius of the waypoint and within range of the loiter height, 25 further rounds (cloud, grid, iteration) end with the node landing, and nothing undefined happens on the way.","all runs of the two nodes up to the order, in any interleaving; all clouds that show flat ground, any number of points, any tolerance below the thresholds; all configurations whose limits a flat neighbourhood can meet; all filter contents at the start; vehicle positions drifting","liveness across two processes, from raw points through a statistics filter, a smoothing kernel, a message, a hysteresis filter and a state machine, for unbounded histories",["safe_landing_planner/src/nodes/safe_landing_planner.cpp: runSafeLandingPlanner, processPointcloud, isLandingPossible","safe_landing_planner/src/nodes/safe_landing_planner_node.cpp: publishSerialGrid","safe_landing_planner/src/nodes/waypoint_generator.cpp: calculateWaypoint, updateSLPState, evaluatePatch"])
p("With a clear view the vehicle is sent straight to the goal","In every run of the local planner node: if from some moment on no camera measures a point between the minimum and the maximum sensor range and nothing is remembered, then - once the path planned last before has been flown, unless a climb, a take-off or a landing is asked for - the third message after that moment, and every later one, is straight to the goal: the waypoint is one metre towards the goal (the goal itself within a metre), the adapted position lies on the segment from the vehicle to the goal, and without smoothing that is the published position. A memory of obstacles runs out: after two plans in succession with a clear view, the first at least the maximum age after the last plan that saw anything, nothing is remembered.","all runs of the node, any interleaving of planner, command loop, poses, goals and parameters; all histories before that moment (any obstacles, any old path, any mode); any number of messages after it; all paths planned before but those of exactly two nodes","the old path, the memory of points, the mode of the generator and the order of events all persist over unbounded histories; a test shows one flight",["local_planner/src/nodes/local_planner.cpp: runPlanner, determineStrategy","local_planner/src/nodes/local_planner_nodelet.cpp: updatePlanner, calculateWaypoints","local_planner/src/nodes/waypoint_generator.cpp: tryPath, direct, getPathMsg","local_planner/src/nodes/planner_functions.cpp: processPointcloud, getSetpointFromPath"])
p("When the global planner gives up a goal","In every run of the global planner, a planning cycle that searches and finds no path - and so takes the goal for blocked - does so only if no sequence of permitted moves leads from the start of its first search to the goal, or at least as many different places as the iterations permitted can be reached outside the goal; and only if the last resort, up to the maximum altitude, across and down, fails as well: one leg has no route over cells of low risk or 5000 different cells were looked at. Conversely, a way that exists is found when fewer places than the permitted iterations can be reached.","all runs of the node: any poses, maps, goals, parameters and planning cycles in any order; all three node types; all cell sizes (the last resort: cell size 1)","a search that gives up too early fails only on some maps; soundness of 'there is no path' quantifies over all paths, all maps and all histories of what was seen",["global_planner/src/library/global_planner.cpp: getGlobalPath, findPath, getOpenNeighbors","global_planner/include/global_planner/search_tools.h: findSmoothPath, find2DPath, findPathOld","global_planner/src/nodes/global_planner_node.cpp: planPath"])
p("A vehicle that follows its setpoints gets to the goal","The local planner node in a closed loop with a vehicle: in a mission, with a clear view, nothing remembered, no climb in progress, a goal that stays the same and no smoothing configured, a vehicle that between two setpoints flies some part of the way to the published position and turns to the published yaw comes closer to the goal with every setpoint. If the setpoints are at least tau apart, the cruise speed is at least c and the cameras let the part sigma of the speed pass straight ahead, each setpoint after the first lies at least tau/(0.9+tau) times min(c sigma, distance, ...) ahead, and every distance eps > 0 from the goal is reached after a number of setpoints known in advance.","all runs of the node, any interleaving of planner, command loop, poses and parameters; all histories before that moment; all numbers of rounds, timings, positions of goal and vehicle, parts of the way flown, cameras and cruise speeds within the bounds","liveness of a closed loop: the speed filter, the yaw and the field of view feed back through the vehicle over an unbounded number of rounds",["local_planner/src/nodes/waypoint_generator.cpp: adaptSpeed, nextSmoothYaw, runDirect, getPathMsg","avoidance/src/common.cpp: scaleToFOV, cartesianToPolarFCU, nextYaw","local_planner/src/nodes/local_planner_nodelet.cpp: calculateWaypoints, cmdLoopCallback","local_planner/src/nodes/local_planner.cpp: getAvoidanceOutput"])
p("A vehicle that follows the global planner flies its path to the end","The global planner node in a closed loop with a vehicle, between two planning cycles: if the vehicle flies at least some part of the way to every position commanded (all reported positions on that way, never looking exactly backwards), then in every round the poses to come are the rest of the path, and after a number of commands known in advance - from the number of poses, the longest leg, the speeds and that part - its goal is the last pose of the path. If it moreover covers at most a metre between two commands, every further command brings it closer to that pose, every distance is reached, and with it the radius of the goal the path was planned for, so that the next planning cycle counts the goal as reached. Maps, obstacles, goals, velocities and reconfigurations may arrive at any moment. Violated for faster vehicles: at 2 m/s a vehicle that answers every command completely goes around the last pose at a distance of one metre for ever.","all runs of the node up to the plan, all interleavings of messages between the commands, all paths, speeds, parts of the way flown and numbers of rounds","liveness of a closed loop over an unbounded number of rounds and all interleavings",["global_planner/src/nodes/global_planner_node.cpp: positionCallback, publishSetpoint, isCloseToGoal, setCurrentPath","global_planner/include/global_planner/cell.h: GoalCell::withinPositionRadius"])
p("In offboard mode the vehicle first climbs to the altitude of its goal","The local planner node in a closed loop with a vehicle in offboard mode that flies at least some part of the way, straight, to each published position: as long as the vehicle is below the altitude of the goal, every setpoint is straight above it and not above the goal, wherever the goal is horizontally and whatever plans, obstacles and new goals of that altitude arrive; every distance from the altitude is reached after a number of setpoints known in advance; once the altitude is reached the climb does not come again while the vehicle stays armed in offboard mode; and the altitude counts as reached only if the vehicle was there. Then it should fly on to the goal. Violated: within 10 cm of the altitude the setpoint is above the vehicle by at most the square of the missing height, and the altitude counts as reached only exactly, so a vehicle that flies to its setpoints and not beyond climbs for ever and never leaves for the goal.","all runs of the node up to the climb, all interleavings of messages between the setpoints, all goals of the same altitude, plans, parts of the way flown and numbers of rounds","liveness of a closed loop over an unbounded number of rounds and all interleavings",["local_planner/src/nodes/waypoint_generator.cpp: runAltitudeChange, isAltitudeChange, adaptSpeed, getPathMsg, updateState","local_planner/src/nodes/local_planner_nodelet.cpp: cmdLoopCallback, calculateWaypoints"])
p("Landing and take-off commanded by the autopilot","The local planner node in a closed loop with an autopilot that lands (AUTO.LAND or a land item of a mission) or takes off (AUTO.TAKEOFF or a take-off item). Landing: from the second or third setpoint on, a vehicle that is horizontally faster than 0.5 m/s is told to stay where it is, without horizontal velocity; otherwise the setpoint is at the height of the goal, straight above or below the place where it was last too fast or, if it never was, where the landing began, with the velocity the autopilot wants - whatever plans, obstacles and poses arrive; a vehicle that flies at least some part of the way to each setpoint comes down to that point. Take-off: every setpoint is straight above the vehicle and not above the goal, and every distance from the goal is reached after a number of setpoints known in advance. Violated twice: a landing that begins during another change of altitude goes to the place where that change began, however far away the vehicle is; a take-off beside the goal is sent above the altitude of the goal.","all runs of the node up to the landing or take-off, all interleavings of messages between the setpoints, all goals, plans, speeds, parts of the way flown and numbers of rounds","liveness of a closed loop over an unbounded number of rounds and all interleavings",["local_planner/src/nodes/waypoint_generator.cpp: runAltitudeChange, isAltitudeChange, adaptSpeed, getPathMsg, updateState","local_planner/src/nodes/local_planner_nodelet.cpp: cmdLoopCallback, calculateWaypoints"])
p("How fast the published position moves","With smoothing on, the default, the published position is the state of a filter that follows the vehicle and the setpoint asked for. Bound: while no landing is asked for, if the vehicle is never faster than V along an axis, never farther than E from the position published before, and no plan asks for more than W, the published position moves along that axis no faster than V + sqrt(P)/2 (E + W), where P is the smoothing constant of that axis - from any round on in which that holds, whatever plans, modes and poses arrive. Expected and violated: that the published position moves no faster than the speed asked for. The filter takes the velocity of the vehicle for the velocity wanted, so nothing brakes a vehicle that does exactly as it is told: in a climb in offboard mode every setpoint is farther ahead than the one before, by a fixed amount per round, wherever the goal is and whatever plans arrive, until the vehicle is about as many metres below the altitude of the goal as the speed limit.","all runs of the node before, all interleavings of messages between the setpoints, all smoothing constants, speeds, goals, plans and numbers of rounds","an invariant of a closed loop with the vehicle over an unbounded number of rounds; a test sees one vehicle and one trajectory",["local_planner/src/nodes/waypoint_generator.cpp: smoothWaypoint, adaptSpeed, getPathMsg, updateState, runAltitudeChange","local_planner/cfg/LocalPlannerNode.cfg: smoothing_speed_xy_, smoothing_speed_z_"])
p("The simulated wall","The node that simulates sensor data. For a wall of any size: its cloud has exactly 100 points, first the centre of each cell of the wall exactly once and then the origin of the frame, as often as there is room; a wall of more than 100 cells is written past the end of the message. After any number of rounds the node has published one cloud and one pose per round, always the same ones, and one goal, after exactly ten clouds. Expected and violated: that the cloud shows the wall and nothing else; it shows an obstacle at the origin too.","all sizes of the wall, all numbers of rounds","for every size of the wall and every number of rounds",["global_planner/src/nodes/mock_data_node.cpp: createWall, sendMockData, sendClickedPoint, MockDataNode"])
p("Asking the local planner about a point","Asked about any point but the position of the vehicle, the local planner prints an elevation and an azimuth, each the upper edge of the cell of its histogram that contains the point: exactly if the angle is not negative or its whole part is a multiple of six. Violated: for all other negative angles the answer is the upper edge of the next cell; a point straight above is answered with 96 degrees; asked about the position of the vehicle the node converts NaN to an integer.","all positions of the vehicle and all points","all real positions and points",["local_planner/src/nodes/local_planner_nodelet.cpp: clickedPointCallback, printPointInfo"])
p("Returning to launch","While the autopilot returns to launch, the vehicle is first brought straight up: from the third setpoint on, as long as it is at least 0.8 m below a home at least 1 m away, every setpoint is straight above it by at least an amount known in advance, and it leaves that range after a number of setpoints known in advance; and at home it is brought down like in a landing. The second part is violated: the descent the code names is never commanded.","all goals, all flights towards the setpoints of any length, all schedules of setpoints with a least distance, all plans within the speed limits","all closed loops of any length",["local_planner/src/nodes/waypoint_generator.cpp: isAltitudeChange, runAltitudeChange, adaptSpeed"])
p("The landing nodes never leave their memory","Whatever configurations their ranges accept, and whatever poses, clouds, trajectories and flight modes arrive and whatever grid messages are lost, no computation of the landing planner and of the landing waypoint generator reads or writes outside a matrix or a vector, or combines matrices of different sizes. Violated for accepted configurations: the landing patch has to be non-empty and fit into the grid.","all histories of both nodes, all clouds, all configurations and reconfigurations at any time, all losses of messages","all histories of any length",["safe_landing_planner/src/nodes/waypoint_generator.cpp: landingAreaHeightPercentile, evaluatePatch, runEvaluateGrid, updateSLPState","safe_landing_planner/src/nodes/safe_landing_planner.cpp: runSafeLandingPlanner, dynamicReconfigureSetParams","safe_landing_planner/src/nodes/waypoint_generator_node.cpp: gridCallback","safe_landing_planner/cfg/SafeLandingPlannerNode.cfg","safe_landing_planner/cfg/WaypointGeneratorNode.cfg"])
p("The local planner runs with every configuration it accepts","Once the local planner has been given a goal, the clouds of a camera, a pose and a configuration in the ranges of its configuration file, each of its runs is defined, however often and in whatever order goals, poses, clouds, configurations and autopilot parameters change: nothing is accessed out of range, all loops end, and all costs are numbers, unless the goal is exactly (of countably many points) at a place of the search tree. Violated for 0 children per node, which the file accepts.","all event histories, all clouds, all configurations in the ranges, all but countably many goals per pose","all histories of any length",["local_planner/src/nodes/local_planner.cpp: runPlanner, determineStrategy","local_planner/src/nodes/star_planner.cpp: buildLookAheadTree","local_planner/src/nodes/planner_functions.cpp: getBestCandidatesFromCostMatrix, costFunction","local_planner/cfg/LocalPlannerNode.cfg"])
p("The global planner runs with every configuration it accepts","In every run of the global planner - any order and number of positions, velocities, maps, clouds, goals, reconfigurations in the ranges of its configuration file, planning cycles and commands - a callback is undefined only if it brings a map that is not an octree, or needs a risk not yet known since the last map while the robot is larger than a cell of the map; every planning cycle ends; and no search reads outside the table of its risk heuristic. Violated: a minimum overestimation of 1 lets a planning cycle in the goal run forever, and above an altitude index of 24 (maximum altitudes up to 50 m are accepted), below index 0, or with the goal there, the table is read out of range.","all event histories, all maps, all configurations in the ranges, all contents of the memory outside the table","all histories of any length",["global_planner/src/nodes/global_planner_node.cpp: dynamicReconfigureCallback, plannerLoopCallback, cmdLoopCallback, octomapFullCallback","global_planner/src/library/global_planner.cpp: getRisk, riskHeuristic, getHeuristic, isLegal, findPath","global_planner/cfg/GlobalPlannerNode.cfg"])
p("Rounding does not lead the planner into a wrong cell or a wrong turn","With floating-point arithmetic instead of exact arithmetic: the histogram index of every direction with angles up to 1000 degrees is inside the histogram, its conversion to an integer is defined, the cell contains the direction up to 0.0015 degrees (up to whole turns and passing over the pole), and is the exact one for every direction more than 0.01 degrees inside a cell, so the angles of a cell go back to it at every resolution but 1 degree; wrapped angles and angle differences are within 0.001 degrees of the range and of the direction; and the commanded yaw rate turns the short way up to 0.001 rad.","every direction with angles up to 1000 degrees, every yaw up to 100 rad, every resolution dividing 180, and every arithmetic whose operations are within one part in 2^23 (or 2^-40) of the exact result, in particular single precision round to nearest","which inputs meet a rounding error at a cell border or at the cut cannot be enumerated; an index one beyond the histogram is memory corruption",["avoidance/src/common.cpp: wrapAngleToPlusMinus180, wrapAngleToPlusMinusPI, wrapPolar, polarToHistogramIndex, histogramIndexToPolar, angleDifference, getAngularVelocity","avoidance/include/avoidance/common.h: M_PI_F"])
p("A goal whose height is left open is flown in every mode","The autopilot may send goals whose height is not a number (it controls the vertical velocity). When it lands or descends at home, the vehicle stops, and from then on the published setpoint is the place where it stopped with open height and the velocity asked for; in the other modes the vehicle flies towards the horizontal position of the goal and not beyond it.","every state of the waypoint generator and every sequence of rounds with any vehicle states, plans, times, and modes","the NaN takes a different branch in every comparison and in Eigen's normalized; its effect over rounds is not visible in one call",["local_planner/src/nodes/waypoint_generator.cpp: runAltitudeChange, runDirect, isAltitudeChange, adaptSpeed, smoothWaypoint, getPathMsg","local_planner/src/nodes/local_planner_nodelet.cpp: fcuInputGoalCallback"])
p("A plan for a goal whose height is left open leads towards the goal","When the height of the goal is not a number (the autopilot controls the vertical velocity) and there are obstacles, the planned path still leads round the obstacles towards the horizontal position of the goal.","every point cloud, position, velocity, horizontal goal, parameters, step length, number of children and expansions","the NaN goes through the cost, interpolation, smoothing, queue and tree search; the existing tests of each stage use goals that are numbers",["local_planner/src/nodes/planner_functions.cpp: getCostMatrix, costFunction, getBestCandidatesFromCostMatrix, getSetpointFromPath","local_planner/src/nodes/star_planner.cpp: buildLookAheadTree","avoidance/src/common.cpp: polarToHistogramIndex"])
def A(i,extra):
    for d in P:
        if d['id']==i: d['statement']=d['statement'].rstrip()+' '+extra; return
    raise Exception(i)
A("C72","If the iterations allowed exceed the number of nodes that can be reached, the search finds a goal whenever one can be reached; the iterations reported are the number of distinct nodes expanded.")
A("C76","It reports failure only if no route of such cells exists or the iterations were used up.")
A("C54","The passes go on until the permitted number or until nothing can be removed.")
A("C55","Every search starts at the cell the vehicle will be in after the time reserved for searching, coming from where it was that time before; searching ends only because a search failed, the next factor is below the minimum, or no more iterations are left than the last search used.")
A("C57","The world the answers refer to is exactly that of the events received, and every query of a cell with defined risk is answered.")
A("C58","Each planning cycle changes goal, stack and path exactly by its outcome, and a message with another horizontal goal is taken over as the goal at the given altitude.")
A("C60","Risk is the Bayes combination of map and prior where the map is occupied or an obstacle was seen, the explored fraction of it elsewhere; more evidence never lowers it; the cell risk adds the flow factor times the seven cells around.")

A("C52","The grid distance is the length of the way of straight and diagonal steps plus the height difference; the goal tests compare the sum of coordinate differences with half the radius for plans and the radius for positions.")
A("C77","The commanded speed is the exact function of the risk bounds and the configuration.")
A("C78","Every position message moves on to the next pose exactly under the distance and heading conditions and changes nothing else.")
A("C24","The processed cloud is exactly: per cell with enough usable new points the one that completes the number, then per other cell the first remembered point that may be carried over.")
A("C86","The fields of view used are those last given per camera (cameras announced in order; otherwise mixed up, shown), the speed is the cruise speed for the last inputs.")
A("C53","The path of the planner as called by the node contains no node twice.")
A("C67","Under every interleaving of the worker's hand-over with the callbacks the planner's goal is one the node's goal has had; a goal that arrives while the hand-over runs can be lost for good, and a click in two parts can mix the altitudes (shown).")
A("C42","The same with all data accesses in between.")
