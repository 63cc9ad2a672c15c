{"id": "C01", "title": "Angle wrapping is canonical", "statement": "wrapAngleToPlusMinus180 (and wrapAngleToPlusMinusPI) return, for every finite angle, the one angle in [-180,180) (resp. [-pi,pi)) that differs from the argument by a whole number of turns; wrapping is therefore idempotent and independent of how many turns were added.", "quantifier": "every finite angle and every whole number of added turns", "why_tests_cant": "the range and the congruence must hold for every real angle, including the half-turn boundaries and arbitrarily many turns", "anchors": ["avoidance/src/common.cpp: wrapAngleToPlusMinus180, wrapAngleToPlusMinusPI"]}
{"id": "C02", "title": "angleDifference is the signed shortest rotation", "statement": "angleDifference(a,b) is congruent to a-b modulo 360, lies in [-180,180), and no other angle congruent to a-b has a smaller absolute value; indexAngleDifference(a,b) of two angles that lie within one turn of each other is that absolute value. (The header promises a value in [0,180]; the function is signed.)", "quantifier": "every pair of finite angles", "why_tests_cant": "two nested conditionals around fmod with four boundary cases; only a proof covers every pair and every number of turns", "anchors": ["avoidance/src/common.cpp: angleDifference, indexAngleDifference", "avoidance/include/avoidance/common.h: angleDifference doc"]}
{"id": "C03", "title": "wrapPolar keeps the direction and normalises it", "statement": "wrapPolar leaves the represented 3-D direction and the radius unchanged, and returns an elevation in [-90,90] and an azimuth in [-180,180); applying it twice is the same as once.", "quantifier": "every polar point with finite angles", "why_tests_cant": "infinitely many angles in both coordinates, with an interaction (crossing a pole shifts the azimuth by half a turn)", "anchors": ["avoidance/src/common.cpp: wrapPolar, polarHistogramToCartesian"]}
{"id": "C04", "title": "Histogram index and polar angle are mutually inverse", "statement": "polarToHistogramIndex always returns indices inside the histogram, maps every direction to the cell whose angular interval contains it, and maps the centre returned by histogramIndexToPolar(e,z) back to (e,z) for every cell and every admissible resolution.", "quantifier": "every direction, every admissible histogram resolution and every cell", "why_tests_cant": "an out-of-range index is memory corruption; must hold for every float direction and all cells", "anchors": ["avoidance/src/common.cpp: polarToHistogramIndex, histogramIndexToPolar"]}
{"id": "C05", "title": "Cartesian and polar coordinates are mutually inverse (histogram convention)", "statement": "polarHistogramToCartesian(cartesianToPolarHistogram(p,o),o) = p for all points p and origins o; the radius is the Euclidean distance and the angles lie in their documented ranges; conversely a polar point with positive radius and elevation inside (-90,90) is recovered up to azimuth turns.", "quantifier": "every pair of points in space", "why_tests_cant": "continuous domain with singular points (origin, straight up/down)", "anchors": ["avoidance/src/common.cpp: cartesianToPolarHistogram, polarHistogramToCartesian"]}
{"id": "C06", "title": "Cartesian and polar coordinates are mutually inverse (FCU convention)", "statement": "Expected: polarFCUToCartesian(cartesianToPolarFCU(p,o),o) = p. The code satisfies this only when p and o are at the same height: the two functions use opposite signs of elevation, so the height offset comes back mirrored. Proved: the exact value of the round trip for every p and o, its correctness at equal heights, and its failure elsewhere.", "quantifier": "every pair of points in space", "why_tests_cant": "the repo's unit test only tries points at the height of the origin, where the mirror is invisible", "anchors": ["avoidance/src/common.cpp: cartesianToPolarFCU, polarFCUToCartesian", "avoidance/test/test_common.cpp: Common.polarFCUToCartesian"]}
{"id": "C07", "title": "ENU and NED conversions are involutions", "statement": "toENU(toNED(v)) = v = toNED(toENU(v)), both preserve lengths, and yaw/pitch conversions invert each other; converting an orientation to NED and back to ENU yields the same rotation.", "quantifier": "every vector, angle and unit quaternion", "why_tests_cant": "universally quantified algebraic law", "anchors": ["avoidance/include/avoidance/common.h: toNED, toENU, yawToNEDrad, yawToENUrad", "avoidance/src/common.cpp: orientationToNED, orientationToENU, quaternionFromRPY"]}
{"id": "C08", "title": "Yaw-rate command turns the short way", "statement": "getAngularVelocity(desired,current) is half of a rotation that takes current to desired (modulo a full turn) and, whenever current lies in [-pi,pi), has magnitude at most pi/2, i.e. it is the shortest rotation.", "quantifier": "every desired yaw and every current yaw in [-pi,pi)", "why_tests_cant": "continuous domain, case split on sign and magnitude", "anchors": ["avoidance/src/common.cpp: getAngularVelocity"]}
{"id": "C09", "title": "Histogram reads wrap around and never go out of bounds", "statement": "get_dist(e,z) is defined for all integers, depends only on e mod 180/res and z mod 360/res, and returns the value last written by set_dist to that cell (0 if none since construction or setZero); writes to one cell do not change any other; isEmpty is true exactly when no cell holds a value above the smallest positive normal float.", "quantifier": "every sequence of histogram operations, every cell and every integer pair of indices", "why_tests_cant": "C++ % is negative for negative operands; needs every integer index and every history of writes", "anchors": ["avoidance/include/avoidance/histogram.h: wrapIndex, get_dist, set_dist", "avoidance/src/histogram.cpp: Histogram, setZero, isEmpty"]}
{"id": "C10", "title": "Histogram resampling", "statement": "upsample throws unless the histogram is half resolution, downsample throws unless it is full resolution (and then nothing changes); upsample then downsample is the identity; downsampling preserves the average and a cell of a coarse histogram of non-negative distances is positive exactly if one of its four fine cells is.", "quantifier": "every histogram content", "why_tests_cant": "universally quantified matrix law", "anchors": ["avoidance/src/histogram.cpp: upsample, downsample"]}
{"id": "C11", "title": "Field-of-view membership", "statement": "A direction is inside a camera's yaw field of view exactly when it is within half the horizontal opening angle of the camera axis. The code satisfies this for every camera whose field of view does not cross the +-180 degree line (closed boundaries included); a camera that does cross it contains no direction between its two wrapped edges, shown with a witness.", "quantifier": "every camera yaw, opening angle and direction", "why_tests_cant": "continuous domain, wrap-around boundary", "anchors": ["avoidance/src/common.cpp: pointInsideFOV, pointInsideYawFOV"]}
{"id": "C12", "title": "isInWhichFOV / isOnEdgeOfFOV identify the unique camera", "statement": "isInWhichFOV returns true with index i exactly when camera i is the only camera that contains the direction, and otherwise returns false with index -1. isOnEdgeOfFOV returns true only with such an index, and -1 otherwise.", "quantifier": "every list of cameras and every direction", "why_tests_cant": "arbitrary number of cameras and overlap patterns", "anchors": ["avoidance/src/common.cpp: isInWhichFOV, isOnEdgeOfFOV"]}
{"id": "C13", "title": "scaleToFOV is a scale", "statement": "scaleToFOV returns a value in [0,1]; 0 for a direction outside every camera; 1 for a direction inside that is not on the edge of the field of view; on the edge it decreases from 1 on the camera axis to 0 at the border.", "quantifier": "every list of cameras with positive opening angles and every direction", "why_tests_cant": "continuous domain, arbitrary camera lists", "anchors": ["avoidance/src/common.cpp: scaleToFOV"]}
{"id": "C14", "title": "The detected field of view never shrinks", "statement": "Updating a FOV with any sequence of clouds never reduces its horizontal or vertical opening angle, an empty set of extremes changes nothing, and horizontal and vertical parts change independently; each new opening angle is at most 180 degrees horizontally.", "quantifier": "every initial FOV and every sequence of extreme-point sets", "why_tests_cant": "property over all histories of point clouds", "anchors": ["avoidance/src/common.cpp: updateFOVFromMaxima"]}
{"id": "C15", "title": "Point-cloud sanitising removes exactly the non-finite points", "statement": "removeNaNAndGetMaxima keeps exactly the points with three finite coordinates, in their original order, and every returned extreme point is one of the kept points and is extremal in its coordinate among all kept points whose coordinates are within the +-9999 sentinel.", "quantifier": "every point cloud, with non-finite coordinates in any positions", "why_tests_cant": "all cloud sizes and NaN patterns; in-place compaction", "anchors": ["avoidance/src/common.cpp: removeNaNAndGetMaxima"]}
{"id": "C16", "title": "Trajectory message carries exactly one valid waypoint", "statement": "transformToTrajectory marks point 1 valid and all others invalid, copies pose position, linear velocity and yaw into it, sets the yaw rate to the negated angular velocity and fills every other field with NaN; transformToBezier marks all five valid and its control points decode back to the inputs.", "quantifier": "every pose, twist and set of control points", "why_tests_cant": "universally quantified field-by-field contract", "anchors": ["avoidance/src/common.cpp: transformToTrajectory, transformToBezier, fillControlPoint, fillUnusedTrajectoryPoint"]}
{"id": "C17", "title": "Transform buffer stays ordered and bounded", "statement": "After any sequence of insertions, the stored transforms of each frame pair have strictly increasing time stamps and span no more than the configured buffer duration; an insertion that is not newer than the newest stored transform is rejected and changes nothing; an insertion for one frame pair does not change another (distinct keys).", "quantifier": "every sequence of insertions for every frame pair and every non-negative buffer duration", "why_tests_cant": "all histories, including out-of-order stamps", "anchors": ["avoidance/src/transform_buffer.cpp: insertTransform, getKey"]}
{"id": "C18", "title": "Transform lookup never extrapolates", "statement": "getTransform succeeds only when the requested time lies between the oldest and newest stored stamp, returns the stored transform exactly when the time equals a stored stamp (with at least two entries), and otherwise interpolates between the two stored transforms that bracket the time with a ratio in [0,1]. With a single stored transform the lookup fails even at its exact stamp (shown).", "quantifier": "every reachable buffer and every query time", "why_tests_cant": "all histories and query times; reverse scan loop boundaries", "anchors": ["avoidance/src/transform_buffer.cpp: getTransform, interpolateTransform"]}
{"id": "C19", "title": "Frame pairs do not alias", "statement": "Expected: transforms registered for different (source,target) pairs are never confused. The string key source+\"_to_\"+target is not injective: a witness pair of different frame pairs shares a key. Proved injective for frame names in which \"_to_\" (also across the joint) does not occur.", "quantifier": "every pair of frame-name pairs", "why_tests_cant": "all strings", "anchors": ["avoidance/src/transform_buffer.cpp: getKey"]}
{"id": "C20", "title": "State-machine engine", "statement": "One iteration runs the current state once; REPEAT keeps the state; any other transition moves to the table entry, or to the error state if the pair is not in the table. Over any run the state is always one reachable in the table.", "quantifier": "every machine, every run of transitions", "why_tests_cant": "all runs", "anchors": ["avoidance/include/avoidance/usm.h: iterateOnce"]}
{"id": "C21", "title": "Data-loss watchdog", "statement": "checkFailsafe: with data and up-time over the termination timeout (15 s) the status becomes FLIGHT_TERMINATION; otherwise with data over 0.5 s and up-time over 5 s it becomes CRITICAL and hover is requested; otherwise it becomes ACTIVE unless hover is requested. During start-up there is never an alarm. While the data only gets older, a run of checks only escalates; once hover is requested the watchdog never returns to ACTIVE by itself. Termination is not final: with fresh data and no hover request the status is ACTIVE again.", "quantifier": "every data age, uptime and sequence of checks", "why_tests_cant": "all timing sequences", "anchors": ["avoidance/src/avoidance_node.cpp: checkFailsafe"]}
{"id": "C22", "title": "PX4 parameter intake", "statement": "Each PARAM_VALUE message updates exactly the model parameter of that name and no other; unknown names change nothing; after all required parameters have been seen the parameter poll switches from every 5 s to every 30 s, never before.", "quantifier": "every sequence of parameter messages", "why_tests_cant": "all histories", "anchors": ["avoidance/src/avoidance_node.cpp: px4ParamsCallback, checkPx4Parameters"]}
{"id": "C23", "title": "Mission speed", "statement": "The mission speed used is that of the last DO_CHANGE_SPEED item at or before the first current item of the mission; later items have no effect; with none, or without a current item, the previous value stays. (Airspeed items are accepted although the comment says ground speed.)", "quantifier": "every mission list and every current index", "why_tests_cant": "all lists", "anchors": ["avoidance/src/avoidance_node.cpp: missionCallback"]}
{"id": "C24", "title": "Processed cloud contains only relevant points", "statement": "With at least one sensor cloud, every point of the processed cloud is either a new input point strictly between the minimum and maximum sensor range whose 2-degree cell has received the configured number of points, or a remembered point inside the maximum range, younger than the maximum age and outside the current field of view; there is at most one point per 2-degree cell; and no cell that qualifies is left out. With a minimum of zero points per cell everything is dropped (shown). The processed cloud is exactly: per cell with enough usable new points the one that completes the number, then per other cell the first remembered point that may be carried over.", "quantifier": "every set of clouds, previous cloud and parameters", "why_tests_cant": "all clouds, order independence", "anchors": ["local_planner/src/nodes/planner_functions.cpp: processPointcloud"]}
{"id": "C25", "title": "Obstacle histogram holds the mean distance", "statement": "generateNewHistogram stores in each cell the arithmetic mean of the distances of the points whose direction falls into that cell, and 0 in cells without points.", "quantifier": "every cloud and position", "why_tests_cant": "all clouds and orders", "anchors": ["local_planner/src/nodes/planner_functions.cpp: generateNewHistogram"]}
{"id": "C26", "title": "Elevation compression keeps the nearest obstacle", "statement": "compressHistogramElevation stores, per azimuth, the smallest positive distance among the rows within 12 degrees of the horizon whose obstacle is less than 1 m above or below the vehicle, and 0 exactly if there is none; all other rows are empty.", "quantifier": "every histogram", "why_tests_cant": "all matrices", "anchors": ["local_planner/src/nodes/planner_functions.cpp: compressHistogramElevation"]}
{"id": "C27", "title": "getBestCandidates returns the k cheapest cells in ascending order", "statement": "For every matrix and every k between 1 and the number of cells, the result has exactly k entries, sorted by ascending cost, and every cell not returned costs at least as much as every returned one. For k = 0 the code reads the top of an empty queue (undefined).", "quantifier": "every cost matrix and every k", "why_tests_cant": "all matrices, ties included", "anchors": ["local_planner/src/nodes/planner_functions.cpp: getBestCandidates"]}
{"id": "C28", "title": "Obstacle cost is bounded and monotone", "statement": "In costFunction, the distance cost is 0 without an obstacle, lies between 0 and 10000 and never increases with distance; all other cost terms are non-negative for non-negative parameters.", "quantifier": "every direction, obstacle distance and cost parameters", "why_tests_cant": "continuous domain", "anchors": ["local_planner/src/nodes/planner_functions.cpp: costFunction"]}
{"id": "C29", "title": "The cost matrix is completely filled", "statement": "For every grid and step size the coarse-to-fine interpolation of getCostMatrix assigns every cell without an out-of-range write, leaves sampled cells at their exact cost and gives every other cell a value between the two samples that enclose it; the whole cost matrix is finite and non-negative and charges at least the full obstacle cost in every sampled column, hence of every obstacle within 45 degrees of the horizon. Obstacles in columns that are not sampled (high elevations) have no influence (shown).", "quantifier": "every grid size and step size", "why_tests_cant": "all sizes; index arithmetic at the last block", "anchors": ["local_planner/src/nodes/planner_functions.cpp: getCostMatrix"]}
{"id": "C30", "title": "Cost smoothing respects the wrap-around topology", "statement": "padPolarMatrix reproduces the matrix in the middle and pads it so that azimuth wraps and elevation mirrors across the pole with half-turn shift; smoothing never turns a non-negative matrix negative, and preserves constants up to the kernel sum.", "quantifier": "every matrix and smoothing radius", "why_tests_cant": "index arithmetic over all sizes", "anchors": ["local_planner/src/nodes/planner_functions.cpp: padPolarMatrix, smoothPolarMatrix, getConicKernel"]}
{"id": "C31", "title": "Setpoint interpolation stays on the path", "statement": "getSetpointFromPath never reads outside the path; it succeeds on a path of three or more nodes exactly if the distance travelled since the path was computed lies strictly inside one of its segments (or is 0), and then the setpoint is the point of the path at that arc length; a two-node path always gives its goal; fewer nodes and travelled-out paths are rejected. A vehicle exactly at an interior node is rejected although the path is not exhausted (shown).", "quantifier": "every path, elapsed time and speed", "why_tests_cant": "all path lengths", "anchors": ["local_planner/src/nodes/planner_functions.cpp: getSetpointFromPath"]}
{"id": "C32", "title": "Obstacle-distance message", "statement": "Bin i of the published obstacle distances is NaN exactly if the direction is outside the field of view, the histogram distance if that exceeds the minimum sensor range, and max range + 0.01 otherwise; the 60 bins are a rotation of the histogram's azimuth columns, no column is lost or duplicated.", "quantifier": "every histogram, field of view and range setting", "why_tests_cant": "all contents", "anchors": ["local_planner/src/nodes/local_planner.cpp: updateObstacleDistanceMsg"]}
{"id": "C33", "title": "Speed is limited by cruise speed and stopping distance", "statement": "The velocity requested in getAvoidanceOutput never exceeds the mission or cruise speed, and from that speed the vehicle can stop within the maximum sensor range under the configured jerk and acceleration.", "quantifier": "every positive parameter set", "why_tests_cant": "continuous quadratic with square root", "anchors": ["local_planner/src/nodes/local_planner.cpp: getAvoidanceOutput"]}
{"id": "C34", "title": "Closest point on the mission line", "statement": "The reference point computed in determineStrategy is the goal itself exactly when the goals coincide in the plane or the vehicle is closer to the mission line than the cruise speed, and otherwise, at goal height, the orthogonal projection of the position onto the line through the two goals: no point of the line is closer.", "quantifier": "every goal, previous goal and position", "why_tests_cant": "continuous domain, degenerate case", "anchors": ["local_planner/src/nodes/local_planner.cpp: determineStrategy"]}
{"id": "C35", "title": "Look-ahead tree is a tree and the returned path is a root path", "statement": "The look-ahead tree is rooted at the vehicle; every other node is a child of an earlier expanded node, one step away in one of its candidate directions; any two nodes are at least 0.2 m apart; no node is expanded twice, at most n_expanded_nodes are expanded, with at most children_per_node children each; expansion always continues with the cheapest open node in range. The returned path follows parents to the vehicle, so its construction terminates, with consecutive points one step apart. With at least one child per node and a goal that is not exactly at a place of the tree (of countably many) nothing is undefined; 0 children per node, which the configuration allows, is undefined (shown).", "quantifier": "every obstacle cloud, cost function and configuration", "why_tests_cant": "all expansions histories", "anchors": ["local_planner/src/nodes/star_planner.cpp: buildLookAheadTree"]}
{"id": "C36", "title": "Simulated trajectories respect vehicle limits", "statement": "Every simulated trajectory has one state per started step; each state follows from its predecessor by exact constant-jerk motion within the jerk limit and at most one step long, constant-jerk integration composes over time, the velocity aimed at respects the horizontal and vertical limits, and the acceleration stays within the limit (or the start acceleration). The states need not cover the requested duration, and a zero goal vector gives NaN (both shown).", "quantifier": "every start state, goal direction, limits and duration", "why_tests_cant": "all durations and states", "anchors": ["local_planner/src/utils/trajectory_simulator.cpp: generate_trajectory, simulate_step_constant_jerk, norm_clamp, xy_norm_z_clamp"]}
{"id": "C37", "title": "Waypoint mode selection", "statement": "The mode of the local waypoint generator follows the documented rules in every cycle; every emitted transition is in the table; a loiter request that lasts two cycles is honoured from every mode, kept while it lasts and left in the first cycle without it; in loiter the hover position stays fixed; in offboard mode below the goal altitude the altitude is changed first, vertically. Findings shown: one cycle of delay; during landing the setpoint of other modes is stale; the horizontal brake setpoint is never published.", "quantifier": "every sequence of inputs", "why_tests_cant": "all runs", "anchors": ["local_planner/src/nodes/waypoint_generator.cpp: chooseNextState, runCurrentState, run*"]}
{"id": "C38", "title": "Setpoint speed is bounded", "statement": "The speed of the waypoints never exceeds the distance to the goal nor the largest cruise speed requested so far (at least the 2 m/s used initially), in every run; the speed-adapted waypoint lies in the direction of the chosen waypoint at that distance (unless that is within 10 cm); it decays when the waypoint is outside the field of view.", "quantifier": "every position, goal and planner output", "why_tests_cant": "continuous domain", "anchors": ["local_planner/src/nodes/waypoint_generator.cpp: adaptSpeed, getPathMsg"]}
{"id": "C39", "title": "Setpoint smoothing", "statement": "With smoothing disabled the published position is the speed-adapted waypoint and the yaw the desired one; with smoothing the position and the yaw move by the filter's integrated velocity, and the filter stands still exactly if it is at the target with velocity zero.", "quantifier": "every filter state, time step and target", "why_tests_cant": "all runs", "anchors": ["local_planner/src/nodes/waypoint_generator.cpp: smoothWaypoint, nextSmoothYaw"]}
{"id": "C40", "title": "Planner runs only on a complete sensor frame", "statement": "The worker starts a planning cycle only when every camera has delivered a transformed cloud since the previous cycle, hands exactly those clouds to the planner, and marks them consumed.", "quantifier": "every number of cameras and every interleaving of camera and worker events", "why_tests_cant": "all interleavings", "anchors": ["local_planner/src/nodes/local_planner_nodelet.cpp: threadFunction, pointCloudCallback, pointCloudTransformThread, updatePlannerInfo"]}
{"id": "C41", "title": "No setpoints while degraded", "statement": "A round of the command loop sends a setpoint exactly if the planner's data is young enough or the node has just started; the status is then ACTIVE. Expected in addition: in the critical state the vehicle is commanded to hover. In the code the hover flag is cleared at the start of each round, so a loiter caused by missing data is never commanded, and flight termination is revoked by new data (both shown).", "quantifier": "every sequence of rounds, data ages and statuses", "why_tests_cant": "all timing sequences", "anchors": ["local_planner/src/nodes/local_planner_nodelet.cpp: cmdLoopCallback, calculateWaypoints", "avoidance/src/avoidance_node.cpp: checkFailsafe"]}
{"id": "C42", "title": "Lock order is deadlock free", "statement": "With any number of cameras, no reachable state of the local planner nodelet has a set of threads that wait only for mutexes held by each other (all nine kinds of mutex, all threads). The same with all data accesses in between.", "quantifier": "every interleaving", "why_tests_cant": "schedules", "anchors": ["local_planner/src/nodes/local_planner_nodelet.cpp: threadFunction, cmdLoopCallback"]}
{"id": "C43", "title": "Landing grid indices are always in range", "statement": "A point accepted by the inside-grid test is mapped to indices inside the grid, for every grid size and cell size, and the cell of that index contains the point.", "quantifier": "every point, vehicle position, grid and cell size", "why_tests_cant": "floating geometry; memory safety", "anchors": ["safe_landing_planner/src/nodes/safe_landing_planner.cpp: isInsideGrid, computeGridIndexes", "safe_landing_planner/include/safe_landing_planner/grid.hpp: Grid"]}
{"id": "C44", "title": "Cell statistics are exact", "statement": "After processing any cloud, each cell's mean, variance and counter are the arithmetic mean, population variance and number of heights of the points that fell into it, independently of their order.", "quantifier": "every cloud", "why_tests_cant": "all sequences; online algorithm", "anchors": ["safe_landing_planner/src/nodes/safe_landing_planner.cpp: computeOnlineMeanVariance, processPointcloud"]}
{"id": "C45", "title": "A cell is landable only if dense and flat", "statement": "Before smoothing, a cell is landable exactly if it has at least the required number of points and its standard deviation is at most the threshold; after smoothing exactly if at most the allowed number (at least 1) of cells of its neighbourhood differ in mean height by more than the threshold and more than the required number of its neighbourhood are dense and flat. Findings shown: a cell without any point can be landable; limits of 0 block or permit everything; cells outside the grid count as height 0.", "quantifier": "every grid content and parameters", "why_tests_cant": "all grids", "anchors": ["safe_landing_planner/src/nodes/safe_landing_planner.cpp: isLandingPossible"]}
{"id": "C46", "title": "Temporal filtering of the grid is a convex combination", "statement": "A run of the planner leaves in every cell alpha*old + (1-alpha)*new of mean and variance, hence values between old and new for alpha in [0,1]; in every history grids of different size are never combined and no access is out of range. Findings shown: the filter starts from 0, so rough ground passes as flat at start-up; replayed grids of another size are combined; the grid published is that of the run before.", "quantifier": "every pair of grids and alpha", "why_tests_cant": "all contents", "anchors": ["safe_landing_planner/include/safe_landing_planner/grid.hpp: combine, resize"]}
{"id": "C47", "title": "Never land on an unchecked area", "statement": "In every run, the landing state is entered only from the way to the landing site, within the acceptance radius of the goal, after a grid evaluation that found a whole landing patch of cells with enough evidence of being landable; once landing, the state is left only by a reset; and the place is that patch. The last part is false of the code when a goal or mode message arrives between evaluation and landing (shown); it is proved when none does.", "quantifier": "every sequence of grids, positions, modes and resets", "why_tests_cant": "all histories", "anchors": ["safe_landing_planner/src/nodes/waypoint_generator.cpp: chooseNextState, updateSLPState, run*"]}
{"id": "C48", "title": "Landing-patch evaluation is memory safe and exact", "statement": "Grid evaluation is free of out-of-range accesses whenever the patch fits into the grid and goes to the landing site exactly if the central patch or one at 1..n/2-s-1 cells in one of eight directions consists of cells that all passed. A grid smaller than the patch, and the visualisation of grids of other than the default size, go out of range (shown).", "quantifier": "every grid size and patch size", "why_tests_cant": "all sizes", "anchors": ["safe_landing_planner/src/nodes/waypoint_generator.cpp: runEvaluateGrid, evaluatePatch"]}
{"id": "C49", "title": "Disarming or leaving the landing mode resets the landing procedure", "statement": "If a message disarms the vehicle or reports a mode other than AUTO.LAND and AUTO.MISSION, the next iteration sends nothing and puts the landing state machine into its initial state, whatever messages arrive in between; without a landing waypoint in force all evidence and decisions are forgotten. The vertical velocity of an interrupted altitude change survives the reset (shown).", "quantifier": "every history", "why_tests_cant": "all histories", "anchors": ["safe_landing_planner/src/nodes/waypoint_generator_node.cpp: stateCallback"]}
{"id": "C50", "title": "Published landing setpoint is flagged valid only when complete", "statement": "Expected: a trajectory setpoint is marked valid only if each axis has a finite position or velocity. The code has a misplaced parenthesis that makes the check on z vacuous: shown with a witness, and the exact condition is proved.", "quantifier": "every setpoint", "why_tests_cant": "NaN patterns", "anchors": ["safe_landing_planner/src/nodes/waypoint_generator_node.cpp: publishTrajectorySetpoints"]}
{"id": "C51", "title": "Height percentile of the landing area", "statement": "The landing height is the rank-round(0.8 n) order statistic of the cell means of the patch; it is computed without leaving the grid or the list exactly if the patch fits and the patch size is at least 1 (0, which the parameter allows, is undefined).", "quantifier": "every patch", "why_tests_cant": "all sizes", "anchors": ["safe_landing_planner/src/nodes/waypoint_generator.cpp: landingAreaHeightPercentile"]}
{"id": "C52", "title": "Cells partition space", "statement": "The cell of a position is the one and only cell whose box contains it; centres lie in their cells; the ten neighbours are exactly the adjacent cells and the relation is symmetric; the grid distance is a metric in the plane and never exceeds the length of a walk over neighbours; the goal tests for plan and position are consistent. The neighbour in yaw direction is two cells away, and flow neighbours are undefined for robots larger than a map cell (shown). The grid distance is the length of the way of straight and diagonal steps plus the height difference; the goal tests compare the sum of coordinate differences with half the radius for plans and the radius for positions.", "quantifier": "every position and cell", "why_tests_cant": "all reals", "anchors": ["global_planner/src/library/cell.cpp: Cell, toPoint, getNeighbors", "global_planner/include/global_planner/cell.h"]}
{"id": "C53", "title": "A returned global path is connected and legal", "statement": "The search always terminates, within the iterations allowed; whenever it reports success the path begins with the given parent and the start, every further cell is a legal neighbour move (below maximum altitude and maximum risk), no node repeats, and the last cell lies within the goal. The path of the planner as called by the node contains no node twice.", "quantifier": "every map, start, goal, heuristic", "why_tests_cant": "all graphs and search histories", "anchors": ["global_planner/include/global_planner/search_tools.h: findSmoothPath", "global_planner/src/library/global_planner.cpp: getOpenNeighbors, isLegal"]}
{"id": "C54", "title": "Path simplification keeps the endpoints and the order", "statement": "simplifyPath returns points of the input in the same order, with the same first two points and the same last point (repeated once to decelerate); a point is removed exactly if the direct edge costs at most margin times the two edges it replaces; without turning costs n passes raise the cost at most by margin^n. The node passes margin and iterations in the wrong order, and the new edge is not checked for legality (both shown). The passes go on until the permitted number or until nothing can be removed.", "quantifier": "every path", "why_tests_cant": "all lengths", "anchors": ["global_planner/include/global_planner/search_tools.h: simplifyPath"]}
{"id": "C55", "title": "Repeated searches: schedule, result and termination", "statement": "The searches of one plan follow the schedule of factors (f-1)/4+1 from the maximum down to the minimum, together stay within the configured iterations, and the result is the path of the last successful one; planning ends whenever the minimum factor exceeds 1 or the vehicle is away from the goal. With a minimum of 1 and the start inside the goal it never ends; with maximum below minimum no search is made (shown). Every search starts at the cell the vehicle will be in after the time reserved for searching, coming from where it was that time before; searching ends only because a search failed, the next factor is below the minimum, or no more iterations are left than the last search used.", "quantifier": "every configuration", "why_tests_cant": "non-termination can't be tested", "anchors": ["global_planner/src/library/global_planner.cpp: findPath"]}
{"id": "C56", "title": "Back-track history", "statement": "While a mission is flown the recorded way is the sequence of cells visited without immediate repetition, from the first to the current cell; goBack follows it in reverse, at least six steps and to the first cell after that with risk below one half. Nothing is recorded before the first goal and one cell is forgotten when part of the way is flown back (shown).", "quantifier": "every sequence of positions", "why_tests_cant": "all histories", "anchors": ["global_planner/src/library/global_planner.cpp: setPose, goBack"]}
{"id": "C57", "title": "Risk cache coherence", "statement": "A risk answer equals the risk recomputed from the current map as long as only maps and queries arrive, and in every history it is the risk the cell had at some moment since the last map. Obstacle points and reconfigurations do not reach cells asked for before, and a map that is not an OcTree crashes the planner (both shown). The world the answers refer to is exactly that of the events received, and every query of a cell with defined risk is answered.", "quantifier": "every history of map updates and queries", "why_tests_cant": "all histories", "anchors": ["global_planner/src/library/global_planner.cpp: getRisk, updateFullOctomap"]}
{"id": "C58", "title": "The mission goal survives intermediate goals", "statement": "The goal of the mission survives intermediate goals: in every run of positions, velocities and planning cycles it stays at the bottom of the goal stack and comes back when the intermediate goals are reached or blocked; intermediate goals are set exactly for poor paths of more than ten cells. Violations shown: a blocked goal with an empty stack is given up for good (also in the first two seconds before a map); a new user goal does not clear the stack; an altitude-only change is ignored; repeated flight-controller goals make the stack grow without bound. Each planning cycle changes goal, stack and path exactly by its outcome, and a message with another horizontal goal is taken over as the goal at the given altitude.", "quantifier": "every sequence of positions, goals, maps and planning cycles", "why_tests_cant": "all histories", "anchors": ["global_planner/src/nodes/global_planner_node.cpp: popNextGoal, positionCallback, readParams"]}
{"id": "C59", "title": "Map updates are rate limited", "statement": "Two accepted full-map updates are never closer than 0.2 s, and no map that arrives at least 0.2 s after the last accepted one is dropped.", "quantifier": "every arrival sequence", "why_tests_cant": "all histories", "anchors": ["global_planner/src/nodes/global_planner_node.cpp: octomapFullCallback"]}
{"id": "C60", "title": "Risk: Bayes update, altitude prior and cell risk", "statement": "posterior of two probabilities is a probability below 1, symmetric and monotone; the altitude prior is read inside its table for every cell; the risk of a cell is non-negative, at least its own risk and bounded by 1 + 7 flow. Findings shown: 0.5 is not neutral, the prior below ground is the smallest instead of the largest, and the risk heuristic reads outside its table below ground and from layer 26. Risk is the Bayes combination of map and prior where the map is occupied or an obstacle was seen, the explored fraction of it elsewhere; more evidence never lowers it; the cell risk adds the flow factor times the seven cells around.", "quantifier": "all reals, all cells", "why_tests_cant": "continuous domain", "anchors": ["global_planner/include/global_planner/common.h: posterior", "global_planner/src/library/global_planner.cpp: getAltPrior"]}
{"id": "C61", "title": "Bezier smoothing stays inside the control polygon", "statement": "Every point of a Bezier turn lies in the triangle of its control points and the curve starts and ends in the outer two; smoothing a path keeps its ends, gives 11(n-2)+2 poses, each in the triangle of three consecutive positions, and consecutive turns join with the same tangent along the common edge; the accelerate-cruise-decelerate flight between two points keeps the speed and acceleration limits. The acceleration functions ignore the duration (shown).", "quantifier": "all control points and t", "why_tests_cant": "continuous domain", "anchors": ["global_planner/include/global_planner/bezier.h: quadraticBezier"]}
{"id": "C62", "title": "Yaw and pitch survive the quaternion", "statement": "Yaw and pitch written into a quaternion as roll-pitch-yaw are read back unchanged, for every roll, every pitch strictly between the poles and every yaw in (-pi,pi]; in particular the yaw of a pose built by createPoseMsg is read back.", "quantifier": "all angles", "why_tests_cant": "continuous domain", "anchors": ["avoidance/src/common.cpp: getYawFromQuaternion, getPitchFromQuaternion, createPoseMsg"]}
{"id": "C63", "title": "Histogram columns and field of view", "statement": "histogramIndexYawInsideFOV does not depend on the vehicle position; it tests exactly the two borders of the azimuth column, turned into the body frame.", "quantifier": "all columns, fields of view, positions and yaws", "why_tests_cant": "continuous domain", "anchors": ["avoidance/src/common.cpp: histogramIndexYawInsideFOV"]}
{"id": "C64", "title": "Published obstacle distances are fresh", "statement": "While CP_DIST is positive every iteration publishes obstacle distances computed in that iteration; while it is negative none are published; in every run published distances stem from an earlier or current iteration. If CP_DIST becomes 0 or NaN the old distances are published for ever (shown).", "quantifier": "every sequence of iterations and parameter values", "why_tests_cant": "all histories", "anchors": ["local_planner/src/nodes/local_planner.cpp: runPlanner, updateObstacleDistanceMsg", "local_planner/src/nodes/local_planner_nodelet.cpp: publishLaserScan"]}
{"id": "C65", "title": "Histogram image", "statement": "A pixel of the published histogram image always fits a byte, is 0 without an obstacle, and a nearer obstacle is never darker than a farther one.", "quantifier": "all distances and sensor ranges", "why_tests_cant": "continuous domain", "anchors": ["local_planner/src/nodes/local_planner.cpp: generateHistogramImage"]}
{"id": "C66", "title": "Setpoint smoothing converges", "statement": "With a constant target near the goal the smoothed position converges to the target on every axis if sqrt(P)*dt < 2*sqrt(2)-2, whatever the filter state; beyond that bound it diverges (at the default P = 10: cycles longer than 0.26 s, shown).", "quantifier": "all filter states, gains and cycle times", "why_tests_cant": "limit over infinitely many steps", "anchors": ["local_planner/src/nodes/waypoint_generator.cpp: smoothWaypoint"]}
{"id": "C67", "title": "The planner flies to the current goal", "statement": "In every history of clicked goals, goal topics, autopilot messages and planning cycles, the planner's goal is the node's current goal whenever no goal is pending, and each planning cycle hands over the latest goal with its predecessor - unless an autopilot message with the special command repeats a known item, after which the two can differ for good (shown). Under every interleaving of the worker's hand-over with the callbacks the planner's goal is one the node's goal has had; a goal that arrives while the hand-over runs can be lost for good, and a click in two parts can mix the altitudes (shown).", "quantifier": "every sequence of goal messages and planning cycles", "why_tests_cant": "all histories", "anchors": ["local_planner/src/nodes/local_planner_nodelet.cpp: updateGoalCallback, clickedGoalCallback, fcuInputGoalCallback, updatePlanner"]}
{"id": "C68", "title": "Landing descent is vertical", "statement": "From the start of landing until a reset every iteration sends one setpoint straight down at 0.7 m/s at a fixed horizontal position and yaw; during the altitude change above the landing area the speed points to the loiter height. Below it the vehicle is sent further down (shown).", "quantifier": "every run", "why_tests_cant": "all histories", "anchors": ["safe_landing_planner/src/nodes/waypoint_generator.cpp: runLand, runAltitudeChange"]}
{"id": "C69", "title": "Exploration spiral", "statement": "In every run the exploration goals of the landing waypoint generator form a spiral determined by the count of goals so far, and every iteration is free of undefined behaviour whenever the patch fits into the received grid and has at least one ring of cells.", "quantifier": "every run", "why_tests_cant": "all histories", "anchors": ["safe_landing_planner/src/nodes/waypoint_generator.cpp: runEvaluateGrid, runGoTo"]}
{"id": "C70", "title": "The grid message is understood", "statement": "Whatever grid the landing planner publishes, receiving it causes no out-of-range access whatever grid was stored before, and the stored grid has the published content and size.", "quantifier": "all grids", "why_tests_cant": "all sizes and contents", "anchors": ["safe_landing_planner/src/nodes/safe_landing_planner_node.cpp: publishSerialGrid", "safe_landing_planner/src/nodes/waypoint_generator_node.cpp: gridCallback"]}
{"id": "C71", "title": "Landing planner status and cloud hand-over", "statement": "After each command loop of the landing planner the status is termination, critical or active exactly by the age of the last finished loop and of the node; messages are at most 0.2 s plus loop and planner times apart; every run of the planner uses a new transformation, in order, of a received message, undisturbed by the worker, under every thread interleaving. Expected further: each run uses a new message and every message wakes the worker. Violations shown: one message can feed the planner for ever, a message can be lost, the node is silent for the whole termination time while waiting, termination is revoked, and start-up races on null pointers.", "quantifier": "every run and every interleaving of worker and command loop", "why_tests_cant": "all interleavings and unbounded runs", "anchors": ["safe_landing_planner/src/nodes/safe_landing_planner_node.cpp: cmdLoopCallback, checkFailsafe, publishSystemStatus, pointCloudTransformThread, pointCloudCallback, startNode"]}
{"id": "C72", "title": "The global search is complete", "statement": "If the search fails before using up the iterations it was given, no sequence of legal moves leads from the start to the goal, whatever the heuristic and the order of the queue. If the iterations allowed exceed the number of nodes that can be reached, the search finds a goal whenever one can be reached; the iterations reported are the number of distinct nodes expanded.", "quantifier": "all maps, heuristics, queue orders", "why_tests_cant": "quantifies over all paths", "anchors": ["global_planner/include/global_planner/search_tools.h: findSmoothPath"]}
{"id": "C73", "title": "Bounded suboptimality", "statement": "If the heuristic overestimates no move by more than a factor eps and the queue returns a cheapest entry, the path found costs at most eps times any legal path; for the planner with turn, risk and speed-up heuristics off, eps is the overestimation factor; for the last-resort cell search 1.00299 times it. The turn heuristic overestimates even at factor 1 (shown).", "quantifier": "all maps, starts and goals", "why_tests_cant": "quantifies over all paths", "anchors": ["global_planner/include/global_planner/search_tools.h: findSmoothPath", "global_planner/src/library/global_planner.cpp: getHeuristic"]}
{"id": "C74", "title": "Turning costs", "statement": "The rotation charged between two moves is the turn between them in units of 45 degrees. Proved except when the first move is along x and the second along y, which is free, while the same turn from y to x is charged; vertical moves after y are charged a quarter turn (shown).", "quantifier": "all pairs of moves", "why_tests_cant": "all integer moves", "anchors": ["global_planner/src/library/node.cpp: getRotation, getXYRotation"]}
{"id": "C75", "title": "No planned edge crosses an occupied cell", "statement": "With the shipped limits no cell reported occupied lies on the planned path: every cell crossed by an accepted edge (shorter than 5 cells) was examined or is bounded in risk. Violations shown: from layer 9 on no cell is ever called occupied and edges into mapped obstacles are accepted; steep edges miss a cell.", "quantifier": "all maps and edges", "why_tests_cant": "all segments and all cells they cross", "anchors": ["global_planner/src/library/node.cpp: getCells", "global_planner/src/library/global_planner.cpp: isLegal, getRisk"]}
{"id": "C76", "title": "Last-resort path", "statement": "Whenever find2DPath reports a path it leads up to the maximum altitude, over to the goal and down to it, in unit steps, through cells that are not too risky - except the cells above start and goal and the goal, whose risk is never looked at; it flies half a cell above the permitted altitude (shown). It reports failure only if no route of such cells exists or the iterations were used up.", "quantifier": "all maps", "why_tests_cant": "quantifies over all maps", "anchors": ["global_planner/include/global_planner/search_tools.h: find2DPath, findPathOld"]}
{"id": "C77", "title": "Position setpoint of the global planner", "statement": "Within one metre of the current goal the goal is sent, otherwise the point at distance speed towards it; the speed lies between default and maximum, falls with risk and is the default above the threshold. Violations shown: speeds above 1 overshoot the goal; at the goal the setpoint is NaN; the switch use_risk_based_speedup has no effect. The commanded speed is the exact function of the risk bounds and the configuration.", "quantifier": "all positions, goals, risks and parameters", "why_tests_cant": "continuous domain", "anchors": ["global_planner/src/nodes/global_planner_node.cpp: publishSetpoint"]}
{"id": "C78", "title": "The planned path is followed in order", "statement": "After a path is set, whatever positions and commands arrive, the last, the current and the coming goals are consecutive poses of that path; a goal is left only when closer than the speed; a vehicle that reaches each goal gets to the end. The yaw test is void except at exactly half a turn (shown). Every position message moves on to the next pose exactly under the distance and heading conditions and changes nothing else.", "quantifier": "every sequence of positions and commands", "why_tests_cant": "all histories", "anchors": ["global_planner/src/nodes/global_planner_node.cpp: setCurrentPath, positionCallback, isCloseToGoal"]}
{"id": "C79", "title": "What is flown after planning", "statement": "A successful plan is followed from its second cell on along the simplified path. Expected: after a failed plan the vehicle goes on, after STOP it stops. In the code a failed plan restarts the old path from its beginning, and STOP followed by a failed plan leaves the old goal in force (shown).", "quantifier": "every map and planner state", "why_tests_cant": "all histories", "anchors": ["global_planner/src/nodes/global_planner_node.cpp: plannerLoopCallback, planPath, publishPath, popNextGoal"]}
{"id": "C80", "title": "Path message", "statement": "The published path has one pose per cell, in order, at the cell's centre, with the yaw of the next horizontal direction, or that of the pose before for vertical moves and at the end.", "quantifier": "all paths", "why_tests_cant": "all lengths", "anchors": ["global_planner/src/library/global_planner.cpp: getPathMsg, nextYaw"]}
{"id": "C81", "title": "Each step of the landing procedure", "statement": "Every iteration of the landing state machine without a pending reset sends exactly one setpoint, determined by its phase (waypoint, vertical speed, loiter position, landing site, descent), and moves to the next phase exactly under the phase's condition: at the undecided landing waypoint; at the loiter height; after more than 20 grids; after the evaluation, to the first landable patch in the search order or back to exploring; at the landing site. Waypoint messages, poses and parameters are taken over exactly under their validity conditions.", "quantifier": "all states of the generator, all messages", "why_tests_cant": "all states and continuous inputs", "anchors": ["safe_landing_planner/src/nodes/waypoint_generator.cpp: runGoTo, runAltitudeChange, runLoiter, runEvaluateGrid, runGoToLand", "safe_landing_planner/src/nodes/waypoint_generator_node.cpp: trajectoryCallback, positionCallback, dynamicReconfigureCallback"]}
{"id": "C82", "title": "The landing procedure gets there", "statement": "From an undecided landing waypoint within the acceptance radius, over ground whose middle patch is landable and flat up to a tolerance, in range of the loiter height, the node is landing after 25 grids, without undefined behaviour, whatever patch size, filter constant and threshold with enough evidence in 20 sightings. A decision taken before a reset that is revoked within one cycle blocks it for good (shown).", "quantifier": "all grids, positions and parameters meeting the conditions", "why_tests_cant": "unbounded sizes and continuous inputs; liveness", "anchors": ["safe_landing_planner/src/nodes/waypoint_generator.cpp: calculateWaypoint, updateSLPState", "safe_landing_planner/src/nodes/waypoint_generator_node.cpp: gridCallback, stateCallback", "safe_landing_planner/src/nodes/safe_landing_planner_node.cpp: publishSerialGrid"]}
{"id": "C83", "title": "Moves of the global planner: offered, accepted, cost", "statement": "The search considers exactly the moves to adjacent cells (or, for nodes with speed, those that continue the last displacement up to one cell), accepts exactly those that end below the maximum altitude and whose risk - the average over the cells sampled along the move, times its length - is below the maximum, and charges horizontal distance, climb, descent, risk and squared turn with their factors, turns double close to the fast vehicle. The summary of a found path reports the cost the search minimised and never a blockage; the published risks are those of its cells.", "quantifier": "all nodes, maps, cost parameters, positions and velocities", "why_tests_cant": "all continuous maps and parameters, all paths", "anchors": ["global_planner/src/library/global_planner.cpp: getOpenNeighbors, isLegal, getEdgeCost, getEdgeDist, getRisk, getPathInfo, getEdgeInfo, getPathWithRiskMsg", "global_planner/src/library/node.cpp: getCells, getNeighbors, getRotation"]}
{"id": "C84", "title": "Recorded grids are replayed as they were", "statement": "The published grid message holds, row by row, mean, standard deviation and number of points of every cell of the grid last completed; processing a well-formed message gives exactly these cells (variance the square of the deviation) in a grid of the message's size, so that recording a grid and replaying it reproduces it; each processed cloud advances the sequence number by one.", "quantifier": "all planner states, grid sizes and messages", "why_tests_cant": "arrays of every size", "anchors": ["safe_landing_planner/src/nodes/safe_landing_planner.cpp: processRawGrid, processPointcloud", "safe_landing_planner/src/nodes/safe_landing_planner_node.cpp: publishSerialGrid"]}
{"id": "C85", "title": "A configuration of the landing planner takes effect with the next run", "statement": "After any history, a configuration with any further events but no other configuration is in effect from the next run on: the grids have the configured size and cell size, the decision uses exactly the configured thresholds and smoothing, and grids are not emptied again while the sizes stay.", "quantifier": "all event histories", "why_tests_cant": "histories of every length", "anchors": ["safe_landing_planner/src/nodes/safe_landing_planner.cpp: dynamicReconfigureSetParams, runSafeLandingPlanner, isLandingPossible"]}
{"id": "C86", "title": "A plan is made from the last inputs", "statement": "After any history of poses, goals, configurations, sensor clouds and runs, the plan of a run is the look-ahead tree for exactly the last configuration, pose and goal given, around the obstacle points of that run, and carries the time of the run; if no direction shows an obstacle the old path and its time are kept. With a configured planner, at least one cloud and a goal that is not exactly at a place of the tree a run is free of undefined behaviour. Every configuration message moves the goal to the configured height (shown). The fields of view used are those last given per camera (cameras announced in order; otherwise mixed up, shown), the speed is the cruise speed for the last inputs.", "quantifier": "all event histories", "why_tests_cant": "histories", "anchors": ["local_planner/src/nodes/local_planner.cpp: runPlanner, determineStrategy, create2DObstacleRepresentation, setState, setGoal, dynamicReconfigureSetParams, getAvoidanceOutput", "local_planner/src/nodes/star_planner.cpp: dynamicReconfigureSetStarParams, buildLookAheadTree"]}
{"id": "C87", "title": "An obstacle that was seen is charged and avoided", "statement": "If the sensors report enough points in one 2-degree cell up to 48 degrees above or below the horizon, the run makes a plan in which that direction costs more than an obstacle at the end of the sensor range, whatever else was seen or remembered; and if enough directions are cheaper, neither the nodes next to the vehicle nor the first leg of the path lie in that direction.", "quantifier": "all histories, clouds, poses, goals and cost parameters", "why_tests_cant": "continuous domain, histories", "anchors": ["local_planner/src/nodes/planner_functions.cpp: processPointcloud, generateNewHistogram, getCostMatrix, getBestCandidatesFromCostMatrix", "local_planner/src/nodes/star_planner.cpp: buildLookAheadTree", "local_planner/src/nodes/local_planner.cpp: runPlanner"]}
{"id": "C88", "title": "What the local planner remembers", "statement": "After any history every remembered obstacle point was measured in range at some run and its age is exactly the time from that run to the last; a point not measured by the last run was younger than the maximum age at the run before, is in range and outside the fields of view. While the vehicle hovers, a remembered point outside the fields of view stays, and its direction stays occupied in every plan, until its cell has enough new points or it has become too old.", "quantifier": "all event histories", "why_tests_cant": "histories", "anchors": ["local_planner/src/nodes/planner_functions.cpp: processPointcloud", "local_planner/src/nodes/local_planner.cpp: runPlanner"]}
{"id": "C89", "title": "Shared data is never accessed concurrently", "statement": "No interleaving of the nodelet's threads (planner worker, command loop, spinner, status loop, transform threads, transform listener, reconfiguration server) reaches a state where two of them are about to access the same datum, one of them writing. Proved for camera data, transform buffers, the waypoint generator, the planner's own data, the autopilot parameters and the time of the last plan; violated (every race is reached) for position, velocity, vehicle state, goal, new-goal flag, planner goal, planner position, planner timeout, waypoint, mission speed, position flag and status.", "quantifier": "every interleaving, any number of cameras", "why_tests_cant": "all schedules", "anchors": ["local_planner/src/nodes/local_planner_nodelet.cpp: all callbacks and threads"]}
{"id": "C90", "title": "The planner is woken up", "statement": "Every planning run uses complete frames of every camera; as long as every camera keeps sending clouds whose transforms are available and every thread keeps being scheduled, every camera's clouds are transformed again and again and the planner plans again and again, whatever notifications are lost. A single cloud that arrives while its thread is busy, or the last frame to be transformed while the worker is busy, is not noticed until the next message (shown).", "quantifier": "every fair infinite schedule, any number of cameras", "why_tests_cant": "liveness over infinite schedules", "anchors": ["local_planner/src/nodes/local_planner_nodelet.cpp: pointCloudCallback, pointCloudTransformThread, threadFunction"]}
{"id": "C91", "title": "What a setpoint is made from", "statement": "After any history of vehicle data, goals, parameters, point clouds and timer rounds, a round of the command loop sends a setpoint exactly if the last plan was handed over at most half a second ago (or within 5 s of the start), nothing else sends, and at most one setpoint is sent per pose. The setpoint is computed from the newest pose, velocity, vehicle state and smoothing parameters, the goal in force (launch file, clicked point, accepted topic, or the waypoint announced by the autopilot; others are ignored), the fields of view of the last snapshot, and the plan handed over last, which one run of the planner made from the newest data at its start and a cloud of every camera. Findings shown: the previous goal of the first plan is uninitialised memory; a reconfigured goal height changes the planner's goal but not the setpoints'.", "quantifier": "all event histories, all states of uninitialised memory", "why_tests_cant": "histories across four threads and three objects", "anchors": ["local_planner/src/nodes/local_planner_nodelet.cpp: all callbacks, updatePlannerInfo, threadFunction, cmdLoopCallback, calculateWaypoints", "local_planner/src/nodes/local_planner.cpp", "local_planner/src/nodes/waypoint_generator.cpp"]}
{"id": "C92", "title": "The speed asked for is within the limits", "statement": "The speed of the setpoints never exceeds the larger of 2 m/s and the cruise and mission speeds given, and the unsmoothed setpoint is never farther than that from the newest position (outside landing), straight towards the chosen waypoint; with fixed acceleration and jerk limits and sensor range, the vehicle is never asked for a speed from which it could not stop within the sensor range. Violated before the first plan: nothing initialises the cruise speed, and the setpoints of an altitude change then use whatever the memory holds (shown); proved if that is not a number or within the limits.", "quantifier": "all event histories, all uninitialised memory", "why_tests_cant": "histories, continuous domain", "anchors": ["local_planner/src/nodes/waypoint_generator.cpp: adaptSpeed", "local_planner/src/nodes/local_planner.cpp: getAvoidanceOutput", "local_planner/include/local_planner/avoidance_output.h: avoidanceOutput", "local_planner/src/nodes/local_planner_nodelet.cpp: cmdLoopCallback, threadFunction"]}
{"id": "C93", "title": "Setpoints keep away from an obstacle that was seen", "statement": "If the frames of the cameras show an obstacle with enough points in one 2-degree cell, the plan started with them ends in the newest position, and no point of the 6-degree area in which the obstacle was seen lies on the ray of its first leg (with enough cheap directions). While that plan is the newest and followed, every setpoint is one metre from the newest position towards a point no farther from the end of that leg than the vehicle could have flown since the plan. Expected for all setpoints; violated: without a usable path the node flies straight at the goal, whatever was seen - before the first plan is handed over in the first five seconds, with the obstacle in the way and already taken over by the worker (shown), and when a plan is used up although it counts as new (shown).", "quantifier": "all event histories, frames, poses, goals and parameters", "why_tests_cant": "histories, continuous domain, three objects and two threads", "anchors": ["local_planner/src/nodes/local_planner_nodelet.cpp: updatePlannerInfo, threadFunction, cmdLoopCallback, calculateWaypoints", "local_planner/src/nodes/local_planner.cpp: runPlanner", "local_planner/src/nodes/waypoint_generator.cpp: runTryPath, runDirect", "local_planner/src/nodes/planner_functions.cpp: getSetpointFromPath, processPointcloud, getCostMatrix"]}
{"id": "C94", "title": "An obstacle that was seen is reported to the autopilot", "statement": "With CP_DIST above 0 every plan sends exactly one obstacle distance message of 60 bins of 6 degrees, none while it is below 0, and nothing else sends one. A bin no camera has in view is unknown; a bin in view shows the smallest mean distance of the four 6-degree rows next to the horizon in which points are less than a metre above or below the vehicle, and reads free (maximum range and a centimetre) if there is none. So an obstacle seen near the horizon in a bin in view is shown with a distance within the sensor range, and every distance shown is backed by measured points in that direction at most and at least that far. Expected: the distance of the nearest obstacle. Violated: points at 1 m and 13 m in one 6-degree cell show 7 m (shown); a remembered obstacle 15 cm away makes its bin read free (shown).", "quantifier": "all event histories, frames, poses and parameters", "why_tests_cant": "histories, continuous domain, three objects", "anchors": ["local_planner/src/nodes/planner_functions.cpp: compressHistogramElevation, processPointcloud, generateNewHistogram", "local_planner/src/nodes/local_planner.cpp: create2DObstacleRepresentation, updateObstacleDistanceMsg", "local_planner/src/nodes/local_planner_nodelet.cpp: updatePlannerInfo, threadFunction, publishLaserScan"]}
{"id": "C95", "title": "The status reported to the autopilot", "statement": "After any history of vehicle data, parameters, clouds and timer rounds the reported status is BOOT until the first round of the command loop; then that of the last round: FLIGHT_TERMINATION if no plan was handed over for more than 15 s (and more than 15 s after the start), else CRITICAL if none for more than half a second (and more than 5 s after the start), else ACTIVE; and FLIGHT_TERMINATION while the loop waits for a position longer than configured, with no position since the last round. Nothing else changes it. ACTIVE implies that the last round sent a setpoint on a new plan (or within 5 s of the start); it is not latched. Finding shown: while the loop waits for a position no plan can be handed over, so a gap of half a second in the positions suspends the setpoints although cameras and planner work.", "quantifier": "all event histories", "why_tests_cant": "histories across three threads", "anchors": ["local_planner/src/nodes/local_planner_nodelet.cpp: cmdLoopCallback, threadFunction, setSystemStatus", "avoidance/src/avoidance_node.cpp: checkFailsafe, setSystemStatus, publishSystemStatus"]}
{"id": "C96", "title": "What the planner displays", "statement": "After any history of calls, a run of the planner leaves a histogram image and a cost image, and publishing them writes nothing outside them. The histogram image has one byte per direction: black if no obstacle is known within sensor range, else the whiter the nearer. The cost image is that of the two cost layers whose sum the planner searched, in shares of the largest cost, with the cells of the heading, the waypoint and the adapted waypoint marked. Violated: the header of the histogram image gives 255 bytes per row where there are 60, and the heading is converted to degrees twice, so that it is marked in the wrong column for nearly every heading.", "quantifier": "all histories, positions, waypoints, orientations", "why_tests_cant": "every histogram, cost matrix and pose", "anchors": ["local_planner/src/nodes/local_planner.cpp: create2DObstacleRepresentation, generateHistogramImage", "local_planner/src/nodes/planner_functions.cpp: generateCostImage", "local_planner/src/nodes/local_planner_visualization.cpp: publishDataImages"]}
{"id": "C97", "title": "What is drawn around the vehicle", "statement": "After any history of calls, drawing the search tree reads only nodes that exist and gives one line per expanded node, to the expanded node it was reached from; the plan is drawn as the lines between its consecutive points; each camera as four triangles that end at the sensor range; the obstacle distances as one triangle per bin, red without data, green without obstacle. Violated: the triangle of a bin is centred on its lower border, so that half of the directions of a bin are drawn in the next one.", "quantifier": "all histories, paths, cameras, distances", "why_tests_cant": "every tree, path and camera", "anchors": ["local_planner/src/nodes/local_planner_visualization.cpp: publishTree, publishPaths, publishRangeScan, publishFOV"]}
{"id": "C98", "title": "Travelled path of the global planner", "statement": "Of the position messages, numbers 0, 10, 20, ... are recorded, and the recorded path is published with each. The length of any path is the sum of its legs, at least the straight distance of any two of its points, and never grows when points are left out: the reported travel distance is at most that of all positions. The energy is the length plus the penalty for each metre climbed. The corners of a path are its ends and the points where the step changes; the curve through them, and its length, is that of the path (a path of one point gets it twice). The kinetic energy is never negative and 0 exactly for steps of equal size per axis. A path of three poses becomes a curve between its ends; the time of a leg is that of a uniform acceleration from rest.", "quantifier": "all message sequences and paths", "why_tests_cant": "paths of any length", "anchors": ["global_planner/src/nodes/global_planner_node.cpp: positionCallback, plannerLoopCallback", "global_planner/include/global_planner/common_ros.h: pathLength, pathEnergy, pathKineticEnergy, filterPathCorners", "global_planner/include/global_planner/bezier.h: threePointBezier, getDuration"]}
{"id": "C99", "title": "Ending the nodes", "statement": "Once the destructor of the local planner nodelet has begun, it returns, with its worker, transform and camera threads ended and joined, under every schedule that is fair to these threads and in which no other thread keeps a mutex for ever; before that none of them ends. Violated: (1) the command loop keeps the waypoint mutex while it waits for a position, so without positions the destructor can wait for ever; (2) the parameter thread of the avoidance node is never told to end nor joined, so that destroying it terminates the process; (3) nobody sets the exit flag of the safe landing planner node, so that its main function never returns.", "quantifier": "all interleavings, any number of cameras, all fair infinite runs", "why_tests_cant": "liveness over all schedules", "anchors": ["local_planner/src/nodes/local_planner_nodelet.cpp: ~LocalPlannerNodelet, threadFunction, pointCloudTransformThread, transformBufferThread, cmdLoopCallback", "avoidance/src/avoidance_node.cpp: ~AvoidanceNode, checkPx4Parameters", "safe_landing_planner/src/nodes/safe_landing_planner_node.cpp: pointCloudTransformThread", "safe_landing_planner/src/nodes/safe_landing_planner_node_main.cpp"]}
{"id": "C100", "title": "Threads of the global and the landing planner", "statement": "Under every interleaving of its threads, the global planner node's map is deleted and replaced only while nobody reads it, its table of risks is changed by one thread at a time, and its way back, goal stack and path belong to one thread; in the landing planner the received message, the transformed cloud, poses, grids, configuration and status are never read while being written. Violated: with use_speedup_heuristics (default) the command loop reads the map and the risks without the mutex, so that the map can be deleted under it; clicked points do the same to the risks; position, velocity, goal and its flags, the tables a new goal clears, obstacle cells, parameters, the poses being followed, speed, time of the last map, travelled path and status are read and written without any mutex; in the landing planner the flag for a transformed cloud, and the pointers to the mutexes at start-up.", "quantifier": "all interleavings of all threads, any number of messages, both settings", "why_tests_cant": "races need an unlucky schedule", "anchors": ["global_planner/src/nodes/global_planner_node.cpp: GlobalPlannerNode, octomapFullCallback, positionCallback, clickedPointCallback, cmdLoopCallback, plannerLoopCallback, publishSetpoint", "global_planner/src/library/global_planner.cpp: getRisk, getHeuristic, setGoal, updateFullOctomap, findPath", "global_planner/include/global_planner/analysis.h: printPointStats", "safe_landing_planner/src/nodes/safe_landing_planner_node.cpp: startNode, cmdLoopCallback, pointCloudTransformThread"]}
{"id": "C101", "title": "From the map to the setpoint (global planner)", "statement": "In every run of the global planner node - any order of positions, velocities, maps, obstacle clouds, goals, reconfigurations, planning cycles and commands - every risk used for planning is the risk of that cell in a state of the world since the last map taken; every path found leads from the predicted start cell to within the goal's radius of the goal of that cycle, each further step going below the maximum altitude with a risk below the maximum (or is a path of the last resort); the poses followed are cells of the last path found, in order, ending at its end; every setpoint lies on the ray from the reported position to the centre of such a cell, at the commanded speed between default and maximum, or is that centre if it is less than a metre away; and every planning cycle ends. Violated: the start cell is not checked, so the vehicle can be sent into a cell that is occupied in the map used for planning; when planning fails a path that is blocked in the new map is still flown; a goal that arrives during a failing search is given up without being searched for.", "quantifier": "all histories of callbacks of the global planner node, all maps, goals, configurations in range, heuristics and queue orders", "why_tests_cant": "end-to-end histories of a node with a map, a cache, a search and a follower cannot be enumerated", "anchors": ["global_planner/src/nodes/global_planner_node.cpp: plannerLoopCallback, planPath, popNextGoal, publishPath, setCurrentPath, positionCallback, cmdLoopCallback, publishSetpoint, octomapFullCallback", "global_planner/src/library/global_planner.cpp: getGlobalPath, findPath, getRisk, setGoal, updateFullOctomap", "global_planner/include/global_planner/search_tools.h: findSmoothPath, find2DPath, simplifyPath"]}
{"id": "C102", "title": "The world shown in RViz", "statement": "A world file that is a list of objects is shown completely or not at all: markers are published exactly if every object is complete, of a known type and its mesh is found, one marker per object, in order, numbered from 1, with the frame, pose, size, shape and mesh of the object; model:// names resolve to the file in the first directory of GAZEBO_MODEL_PATH and then $HOME/.gazebo/models that has it; after any history of reloads marker i on the screen is object i of the last world published with at least i objects; the drone is shown at the pose received. Violated: objects removed from the file stay on the screen; a missing file counts as loaded; sockets pass for files; without GAZEBO_MODEL_PATH a null pointer is used.", "quantifier": "all world files, environments, file systems and histories of reloads", "why_tests_cant": "worlds and file systems cannot be enumerated", "anchors": ["avoidance/src/rviz_world_loader.cpp: resolveUri, visualizeRVIZWorld, visualizeDrone, loopCallback, positionCallback", "avoidance/include/avoidance/rviz_world_loader.h: world_object"]}
{"id": "C103", "title": "What the landing planner shows", "statement": "The displays of the landing planner tell the truth about its grid: one marker per cell, each covering exactly the points counted for the cell; green exactly where landing is possible; black exactly where the deviation is above its threshold or the points are too few, and otherwise different values have different colours; the cloud shown is the counted points, numbered by cell; the path shown joins consecutive positions; the landing area is green exactly where a cell of the tested disc is landable. Violated: a deviation at the threshold looks like none at all; the colours of the counter start over at 400 and mean nothing for thresholds from 200 on; the grid sent to the waypoint generator lags the one displayed by a cycle; the path has gaps; the landing area is shown half a cell off, and wrong unless the middle of the grid is cell 20.", "quantifier": "all grids, thresholds, clouds, histories of poses and cycles", "why_tests_cant": "colours, grids and histories range over infinite sets", "anchors": ["safe_landing_planner/src/nodes/safe_landing_planner_visualization.cpp: publishGrid, publishMeanStdDev, publishCounter, HSVtoRGB, publishPaths", "safe_landing_planner/src/nodes/waypoint_generator_node.cpp: landingAreaVisualization", "safe_landing_planner/src/nodes/safe_landing_planner.cpp: processPointcloud"]}
{"id": "C104", "title": "Asking about a point", "statement": "Asking the global planner about a point is answered with what it plans with - the risk of the cell as the planner is answered it, the risks of the neighbouring cells, the estimate of the cost to the goal, the leaf of the map - and changes nothing: goal, path, setpoints and answers stay what they are. Violated: before the first map, or with the risk heuristic on at altitudes outside the table, the node crashes; the answer is remembered, so an obstacle that arrives afterwards does not reach the planner until the next map; with large cells the neighbours told are the cell itself; the last value told is not the risk of the cell.", "quantifier": "all states, points, maps and sequences of callbacks", "why_tests_cant": "states, maps and histories range over infinite sets", "anchors": ["global_planner/src/nodes/global_planner_node.cpp: clickedPointCallback, printPointInfo", "global_planner/include/global_planner/analysis.h: printPointStats", "global_planner/src/library/global_planner.cpp: getRisk, getHeuristic, riskHeuristic"]}
{"id": "C105", "title": "Showing the flight", "statement": "What the local planner draws of its flight is what happened: for every setpoint sent there is a drawing of its three waypoints and of its velocity as an arrow from the vehicle; the lines through the waypoints join those sent one after the other and none replaces another; the pieces of the flown path join positions received one after the other and do not overlap; the colour of the arrow is the mode that made the setpoint; the points of the off-track display are those computed; drawing changes nothing. Violated: between two rounds all positions but the last two are left out, so the flown path has gaps; the first pieces start at uninitialised values; the arrow has no tip (NaN) except in a change of altitude outside offboard; the colour is that of the next mode, that of loitering is never shown; the off-track points are always NaN.", "quantifier": "all histories of callbacks, timers and planner results", "why_tests_cant": "histories are unbounded and interleaved; the defects are in what is left out", "anchors": ["local_planner/src/nodes/local_planner_visualization.cpp: visualizeWaypoints, publishPaths, publishCurrentSetpoint, publishOfftrackPoints", "local_planner/src/nodes/local_planner_nodelet.cpp: calculateWaypoints, positionCallback", "local_planner/src/nodes/waypoint_generator.cpp: getOfftrackPointsForVisualization"]}
{"id": "C106", "title": "From the cloud to the landing", "statement": "The two landing nodes together: whenever the vehicle is landing or on its way to the landing site, there was a grid evaluation and a landing patch such that every cell of the patch had been measured landable (enough points, small spread, even neighbourhood) in so many distinct point clouds c that 1 - beta^c exceeds the landing threshold, all of them among twenty consecutive clouds - whatever grid messages were lost on the way. No iteration of the state machine uses a grid message twice, and no cloud, configuration or message causes an undefined access. (The clouds need not be recent: the vehicle may set out to land after eight clouds without a single point.)", "quantifier": "all runs of the two nodes: all clouds, poses, configuration changes, autopilot messages and all losses of grid messages", "why_tests_cant": "the claim joins two processes over an unreliable topic; unit tests see one process at a time", "anchors": ["safe_landing_planner/src/nodes/safe_landing_planner_node.cpp: cmdLoopCallback, publishSerialGrid", "safe_landing_planner/src/nodes/waypoint_generator_node.cpp: cmdLoopCallback, gridCallback", "safe_landing_planner/src/nodes/safe_landing_planner.cpp: runSafeLandingPlanner", "safe_landing_planner/src/nodes/waypoint_generator.cpp: runLoiter, runEvaluateGrid"]}
{"id": "C107", "title": "Where the vehicle comes down", "statement": "In every descent (loiter, evaluation, way to the site, landing) during which the autopilot's waypoint and its order to land stay the same, the vehicle starts its landing near a patch all of whose cells were measured landable (as C106 says): along both axes less than half a metre plus one cell from the centre of the patch as each of the counted clouds saw it, plus what the vehicle moved between that cloud and the fixing of the landing goal. If the vehicle hovers (planner pose p, position within delta of it) with unchanged grid sizes and the patch is not too small (8(1.5 cell + 0.5 + delta)^2 <= ((2s+1) cell)^2; with the default configuration: delta up to 27 cm), then the very spot under the vehicle lies in a cell that the counted clouds measured landable. (With smaller patches it need not: the acceptance radius is half a metre whatever the cell size; nor with sizes that change during the descent, since the evidence is kept as long as the number of rows is the same.)", "quantifier": "all runs of the two nodes with all clouds, poses, messages and losses; all descents in them; all grid and patch sizes", "why_tests_cant": "relates the ground in the clouds of one process to the position of the vehicle some seconds later in the state machine of another", "anchors": ["safe_landing_planner/src/nodes/waypoint_generator.cpp: runLoiter, runEvaluateGrid, runGoToLand, withinLandingRadius", "safe_landing_planner/include/safe_landing_planner/grid.hpp: resize, setFilterLimits", "safe_landing_planner/src/nodes/safe_landing_planner.cpp: processPointcloud, computeGridIndexes", "safe_landing_planner/src/nodes/waypoint_generator_node.cpp: trajectoryCallback, stateCallback"]}
{"id": "C108", "title": "The global planner does not forget an obstacle", "statement": "In every run of the global planner, whatever maps, goals and reconfigurations come in between, a cell counts as one in which an obstacle was seen exactly if a depth cloud had a point in it; and from the first map taken after that on, every risk of the cell used for planning is at least the full combination of the prior of its altitude with what the current map says about it - never the reduced risk of explored free space, even where the map takes the cell for free. Violated: until the next map the risk stays what was answered before; a cell the map does not know counts as unknown whatever was seen in it; and a point with a finite x and another coordinate that is not is undefined behaviour.", "quantifier": "all runs of the node: all interleavings of clouds, maps, positions, goals, reconfigurations, planning cycles and commands; all clouds; all cells", "why_tests_cant": "the effect is on the risks of all later planning cycles, through two stores that are filled by different callbacks and a cache that is cleared by a third", "anchors": ["global_planner/src/nodes/global_planner_node.cpp: depthCameraCallback, octomapFullCallback", "global_planner/src/library/global_planner.cpp: getSingleCellRisk, getRisk, updateFullOctomap", "global_planner/src/library/cell.cpp: Cell"]}
{"id": "C109", "title": "On flat ground the vehicle lands", "statement": "In every run of the two landing nodes: if, from some moment on, every cloud shows ground that is flat up to a tolerance in all cells that matter for the patch in the middle of the grid, with enough points in each, then after enough clouds - a number that depends only on the filter constant, the thresholds and how wrong the filtered values were at that moment - an order to land is carried out: within the acceptance radius of the waypoint and within range of the loiter height, 25 further rounds (cloud, grid, iteration) end with the node landing, and nothing undefined happens on the way.", "quantifier": "all runs of the two nodes up to the order, in any interleaving; all clouds that show flat ground, any number of points, any tolerance below the thresholds; all configurations whose limits a flat neighbourhood can meet; all filter contents at the start; vehicle positions drifting", "why_tests_cant": "liveness across two processes, from raw points through a statistics filter, a smoothing kernel, a message, a hysteresis filter and a state machine, for unbounded histories", "anchors": ["safe_landing_planner/src/nodes/safe_landing_planner.cpp: runSafeLandingPlanner, processPointcloud, isLandingPossible", "safe_landing_planner/src/nodes/safe_landing_planner_node.cpp: publishSerialGrid", "safe_landing_planner/src/nodes/waypoint_generator.cpp: calculateWaypoint, updateSLPState, evaluatePatch"]}
{"id": "C110", "title": "With a clear view the vehicle is sent straight to the goal", "statement": "In every run of the local planner node: if from some moment on no camera measures a point between the minimum and the maximum sensor range and nothing is remembered, then - once the path planned last before has been flown, unless a climb, a take-off or a landing is asked for - the third message after that moment, and every later one, is straight to the goal: the waypoint is one metre towards the goal (the goal itself within a metre), the adapted position lies on the segment from the vehicle to the goal, and without smoothing that is the published position. A memory of obstacles runs out: after two plans in succession with a clear view, the first at least the maximum age after the last plan that saw anything, nothing is remembered.", "quantifier": "all runs of the node, any interleaving of planner, command loop, poses, goals and parameters; all histories before that moment (any obstacles, any old path, any mode); any number of messages after it; all paths planned before but those of exactly two nodes", "why_tests_cant": "the old path, the memory of points, the mode of the generator and the order of events all persist over unbounded histories; a test shows one flight", "anchors": ["local_planner/src/nodes/local_planner.cpp: runPlanner, determineStrategy", "local_planner/src/nodes/local_planner_nodelet.cpp: updatePlanner, calculateWaypoints", "local_planner/src/nodes/waypoint_generator.cpp: tryPath, direct, getPathMsg", "local_planner/src/nodes/planner_functions.cpp: processPointcloud, getSetpointFromPath"]}
{"id": "C111", "title": "When the global planner gives up a goal", "statement": "In every run of the global planner, a planning cycle that searches and finds no path - and so takes the goal for blocked - does so only if no sequence of permitted moves leads from the start of its first search to the goal, or at least as many different places as the iterations permitted can be reached outside the goal; and only if the last resort, up to the maximum altitude, across and down, fails as well: one leg has no route over cells of low risk or 5000 different cells were looked at. Conversely, a way that exists is found when fewer places than the permitted iterations can be reached.", "quantifier": "all runs of the node: any poses, maps, goals, parameters and planning cycles in any order; all three node types; all cell sizes (the last resort: cell size 1)", "why_tests_cant": "a search that gives up too early fails only on some maps; soundness of 'there is no path' quantifies over all paths, all maps and all histories of what was seen", "anchors": ["global_planner/src/library/global_planner.cpp: getGlobalPath, findPath, getOpenNeighbors", "global_planner/include/global_planner/search_tools.h: findSmoothPath, find2DPath, findPathOld", "global_planner/src/nodes/global_planner_node.cpp: planPath"]}
{"id": "C112", "title": "A vehicle that follows its setpoints gets to the goal", "statement": "The local planner node in a closed loop with a vehicle: in a mission, with a clear view, nothing remembered, no climb in progress, a goal that stays the same and no smoothing configured, a vehicle that between two setpoints flies some part of the way to the published position and turns to the published yaw comes closer to the goal with every setpoint. If the setpoints are at least tau apart, the cruise speed is at least c and the cameras let the part sigma of the speed pass straight ahead, each setpoint after the first lies at least tau/(0.9+tau) times min(c sigma, distance, ...) ahead, and every distance eps > 0 from the goal is reached after a number of setpoints known in advance.", "quantifier": "all runs of the node, any interleaving of planner, command loop, poses and parameters; all histories before that moment; all numbers of rounds, timings, positions of goal and vehicle, parts of the way flown, cameras and cruise speeds within the bounds", "why_tests_cant": "liveness of a closed loop: the speed filter, the yaw and the field of view feed back through the vehicle over an unbounded number of rounds", "anchors": ["local_planner/src/nodes/waypoint_generator.cpp: adaptSpeed, nextSmoothYaw, runDirect, getPathMsg", "avoidance/src/common.cpp: scaleToFOV, cartesianToPolarFCU, nextYaw", "local_planner/src/nodes/local_planner_nodelet.cpp: calculateWaypoints, cmdLoopCallback", "local_planner/src/nodes/local_planner.cpp: getAvoidanceOutput"]}
{"id": "C113", "title": "A vehicle that follows the global planner flies its path to the end", "statement": "The global planner node in a closed loop with a vehicle, between two planning cycles: if the vehicle flies at least some part of the way to every position commanded (all reported positions on that way, never looking exactly backwards), then in every round the poses to come are the rest of the path, and after a number of commands known in advance - from the number of poses, the longest leg, the speeds and that part - its goal is the last pose of the path. If it moreover covers at most a metre between two commands, every further command brings it closer to that pose, every distance is reached, and with it the radius of the goal the path was planned for, so that the next planning cycle counts the goal as reached. Maps, obstacles, goals, velocities and reconfigurations may arrive at any moment. Violated for faster vehicles: at 2 m/s a vehicle that answers every command completely goes around the last pose at a distance of one metre for ever.", "quantifier": "all runs of the node up to the plan, all interleavings of messages between the commands, all paths, speeds, parts of the way flown and numbers of rounds", "why_tests_cant": "liveness of a closed loop over an unbounded number of rounds and all interleavings", "anchors": ["global_planner/src/nodes/global_planner_node.cpp: positionCallback, publishSetpoint, isCloseToGoal, setCurrentPath", "global_planner/include/global_planner/cell.h: GoalCell::withinPositionRadius"]}
{"id": "C114", "title": "In offboard mode the vehicle first climbs to the altitude of its goal", "statement": "The local planner node in a closed loop with a vehicle in offboard mode that flies at least some part of the way, straight, to each published position: as long as the vehicle is below the altitude of the goal, every setpoint is straight above it and not above the goal, wherever the goal is horizontally and whatever plans, obstacles and new goals of that altitude arrive; every distance from the altitude is reached after a number of setpoints known in advance; once the altitude is reached the climb does not come again while the vehicle stays armed in offboard mode; and the altitude counts as reached only if the vehicle was there. Then it should fly on to the goal. Violated: within 10 cm of the altitude the setpoint is above the vehicle by at most the square of the missing height, and the altitude counts as reached only exactly, so a vehicle that flies to its setpoints and not beyond climbs for ever and never leaves for the goal.", "quantifier": "all runs of the node up to the climb, all interleavings of messages between the setpoints, all goals of the same altitude, plans, parts of the way flown and numbers of rounds", "why_tests_cant": "liveness of a closed loop over an unbounded number of rounds and all interleavings", "anchors": ["local_planner/src/nodes/waypoint_generator.cpp: runAltitudeChange, isAltitudeChange, adaptSpeed, getPathMsg, updateState", "local_planner/src/nodes/local_planner_nodelet.cpp: cmdLoopCallback, calculateWaypoints"]}
{"id": "C115", "title": "Landing and take-off commanded by the autopilot", "statement": "The local planner node in a closed loop with an autopilot that lands (AUTO.LAND or a land item of a mission) or takes off (AUTO.TAKEOFF or a take-off item). Landing: from the second or third setpoint on, a vehicle that is horizontally faster than 0.5 m/s is told to stay where it is, without horizontal velocity; otherwise the setpoint is at the height of the goal, straight above or below the place where it was last too fast or, if it never was, where the landing began, with the velocity the autopilot wants - whatever plans, obstacles and poses arrive; a vehicle that flies at least some part of the way to each setpoint comes down to that point. Take-off: every setpoint is straight above the vehicle and not above the goal, and every distance from the goal is reached after a number of setpoints known in advance. Violated twice: a landing that begins during another change of altitude goes to the place where that change began, however far away the vehicle is; a take-off beside the goal is sent above the altitude of the goal.", "quantifier": "all runs of the node up to the landing or take-off, all interleavings of messages between the setpoints, all goals, plans, speeds, parts of the way flown and numbers of rounds", "why_tests_cant": "liveness of a closed loop over an unbounded number of rounds and all interleavings", "anchors": ["local_planner/src/nodes/waypoint_generator.cpp: runAltitudeChange, isAltitudeChange, adaptSpeed, getPathMsg, updateState", "local_planner/src/nodes/local_planner_nodelet.cpp: cmdLoopCallback, calculateWaypoints"]}
{"id": "C116", "title": "How fast the published position moves", "statement": "With smoothing on, the default, the published position is the state of a filter that follows the vehicle and the setpoint asked for. Bound: while no landing is asked for, if the vehicle is never faster than V along an axis, never farther than E from the position published before, and no plan asks for more than W, the published position moves along that axis no faster than V + sqrt(P)/2 (E + W), where P is the smoothing constant of that axis - from any round on in which that holds, whatever plans, modes and poses arrive. Expected and violated: that the published position moves no faster than the speed asked for. The filter takes the velocity of the vehicle for the velocity wanted, so nothing brakes a vehicle that does exactly as it is told: in a climb in offboard mode every setpoint is farther ahead than the one before, by a fixed amount per round, wherever the goal is and whatever plans arrive, until the vehicle is about as many metres below the altitude of the goal as the speed limit.", "quantifier": "all runs of the node before, all interleavings of messages between the setpoints, all smoothing constants, speeds, goals, plans and numbers of rounds", "why_tests_cant": "an invariant of a closed loop with the vehicle over an unbounded number of rounds; a test sees one vehicle and one trajectory", "anchors": ["local_planner/src/nodes/waypoint_generator.cpp: smoothWaypoint, adaptSpeed, getPathMsg, updateState, runAltitudeChange", "local_planner/cfg/LocalPlannerNode.cfg: smoothing_speed_xy_, smoothing_speed_z_"]}
{"id": "C117", "title": "The simulated wall", "statement": "The node that simulates sensor data. For a wall of any size: its cloud has exactly 100 points, first the centre of each cell of the wall exactly once and then the origin of the frame, as often as there is room; a wall of more than 100 cells is written past the end of the message. After any number of rounds the node has published one cloud and one pose per round, always the same ones, and one goal, after exactly ten clouds. Expected and violated: that the cloud shows the wall and nothing else; it shows an obstacle at the origin too.", "quantifier": "all sizes of the wall, all numbers of rounds", "why_tests_cant": "for every size of the wall and every number of rounds", "anchors": ["global_planner/src/nodes/mock_data_node.cpp: createWall, sendMockData, sendClickedPoint, MockDataNode"]}
{"id": "C118", "title": "Asking the local planner about a point", "statement": "Asked about any point but the position of the vehicle, the local planner prints an elevation and an azimuth, each the upper edge of the cell of its histogram that contains the point: exactly if the angle is not negative or its whole part is a multiple of six. Violated: for all other negative angles the answer is the upper edge of the next cell; a point straight above is answered with 96 degrees; asked about the position of the vehicle the node converts NaN to an integer.", "quantifier": "all positions of the vehicle and all points", "why_tests_cant": "all real positions and points", "anchors": ["local_planner/src/nodes/local_planner_nodelet.cpp: clickedPointCallback, printPointInfo"]}
{"id": "C119", "title": "Returning to launch", "statement": "While the autopilot returns to launch, the vehicle is first brought straight up: from the third setpoint on, as long as it is at least 0.8 m below a home at least 1 m away, every setpoint is straight above it by at least an amount known in advance, and it leaves that range after a number of setpoints known in advance; and at home it is brought down like in a landing. The second part is violated: the descent the code names is never commanded.", "quantifier": "all goals, all flights towards the setpoints of any length, all schedules of setpoints with a least distance, all plans within the speed limits", "why_tests_cant": "all closed loops of any length", "anchors": ["local_planner/src/nodes/waypoint_generator.cpp: isAltitudeChange, runAltitudeChange, adaptSpeed"]}
{"id": "C120", "title": "The landing nodes never leave their memory", "statement": "Whatever configurations their ranges accept, and whatever poses, clouds, trajectories and flight modes arrive and whatever grid messages are lost, no computation of the landing planner and of the landing waypoint generator reads or writes outside a matrix or a vector, or combines matrices of different sizes. Violated for accepted configurations: the landing patch has to be non-empty and fit into the grid.", "quantifier": "all histories of both nodes, all clouds, all configurations and reconfigurations at any time, all losses of messages", "why_tests_cant": "all histories of any length", "anchors": ["safe_landing_planner/src/nodes/waypoint_generator.cpp: landingAreaHeightPercentile, evaluatePatch, runEvaluateGrid, updateSLPState", "safe_landing_planner/src/nodes/safe_landing_planner.cpp: runSafeLandingPlanner, dynamicReconfigureSetParams", "safe_landing_planner/src/nodes/waypoint_generator_node.cpp: gridCallback", "safe_landing_planner/cfg/SafeLandingPlannerNode.cfg", "safe_landing_planner/cfg/WaypointGeneratorNode.cfg"]}
{"id": "C121", "title": "The local planner runs with every configuration it accepts", "statement": "Once the local planner has been given a goal, the clouds of a camera, a pose and a configuration in the ranges of its configuration file, each of its runs is defined, however often and in whatever order goals, poses, clouds, configurations and autopilot parameters change: nothing is accessed out of range, all loops end, and all costs are numbers, unless the goal is exactly (of countably many points) at a place of the search tree. Violated for 0 children per node, which the file accepts.", "quantifier": "all event histories, all clouds, all configurations in the ranges, all but countably many goals per pose", "why_tests_cant": "all histories of any length", "anchors": ["local_planner/src/nodes/local_planner.cpp: runPlanner, determineStrategy", "local_planner/src/nodes/star_planner.cpp: buildLookAheadTree", "local_planner/src/nodes/planner_functions.cpp: getBestCandidatesFromCostMatrix, costFunction", "local_planner/cfg/LocalPlannerNode.cfg"]}
{"id": "C122", "title": "The global planner runs with every configuration it accepts", "statement": "In every run of the global planner - any order and number of positions, velocities, maps, clouds, goals, reconfigurations in the ranges of its configuration file, planning cycles and commands - a callback is undefined only if it brings a map that is not an octree, or needs a risk not yet known since the last map while the robot is larger than a cell of the map; every planning cycle ends; and no search reads outside the table of its risk heuristic. Violated: a minimum overestimation of 1 lets a planning cycle in the goal run forever, and above an altitude index of 24 (maximum altitudes up to 50 m are accepted), below index 0, or with the goal there, the table is read out of range.", "quantifier": "all event histories, all maps, all configurations in the ranges, all contents of the memory outside the table", "why_tests_cant": "all histories of any length", "anchors": ["global_planner/src/nodes/global_planner_node.cpp: dynamicReconfigureCallback, plannerLoopCallback, cmdLoopCallback, octomapFullCallback", "global_planner/src/library/global_planner.cpp: getRisk, riskHeuristic, getHeuristic, isLegal, findPath", "global_planner/cfg/GlobalPlannerNode.cfg"]}
{"id": "C123", "title": "Rounding does not lead the planner into a wrong cell or a wrong turn", "statement": "With floating-point arithmetic instead of exact arithmetic: the histogram index of every direction with angles up to 1000 degrees is inside the histogram, its conversion to an integer is defined, the cell contains the direction up to 0.0015 degrees (up to whole turns and passing over the pole), and is the exact one for every direction more than 0.01 degrees inside a cell, so the angles of a cell go back to it at every resolution but 1 degree; wrapped angles and angle differences are within 0.001 degrees of the range and of the direction; and the commanded yaw rate turns the short way up to 0.001 rad.", "quantifier": "every direction with angles up to 1000 degrees, every yaw up to 100 rad, every resolution dividing 180, and every arithmetic whose operations are within one part in 2^23 (or 2^-40) of the exact result, in particular single precision round to nearest", "why_tests_cant": "which inputs meet a rounding error at a cell border or at the cut cannot be enumerated; an index one beyond the histogram is memory corruption", "anchors": ["avoidance/src/common.cpp: wrapAngleToPlusMinus180, wrapAngleToPlusMinusPI, wrapPolar, polarToHistogramIndex, histogramIndexToPolar, angleDifference, getAngularVelocity", "avoidance/include/avoidance/common.h: M_PI_F"]}
{"id": "C124", "title": "A goal whose height is left open is flown in every mode", "statement": "The autopilot may send goals whose height is not a number (it controls the vertical velocity). When it lands or descends at home, the vehicle stops, and from then on the published setpoint is the place where it stopped with open height and the velocity asked for; in the other modes the vehicle flies towards the horizontal position of the goal and not beyond it.", "quantifier": "every state of the waypoint generator and every sequence of rounds with any vehicle states, plans, times, and modes", "why_tests_cant": "the NaN takes a different branch in every comparison and in Eigen's normalized; its effect over rounds is not visible in one call", "anchors": ["local_planner/src/nodes/waypoint_generator.cpp: runAltitudeChange, runDirect, isAltitudeChange, adaptSpeed, smoothWaypoint, getPathMsg", "local_planner/src/nodes/local_planner_nodelet.cpp: fcuInputGoalCallback"]}
{"id": "C125", "title": "A plan for a goal whose height is left open leads towards the goal", "statement": "When the height of the goal is not a number (the autopilot controls the vertical velocity) and there are obstacles, the planned path still leads round the obstacles towards the horizontal position of the goal.", "quantifier": "every point cloud, position, velocity, horizontal goal, parameters, step length, number of children and expansions", "why_tests_cant": "the NaN goes through the cost, interpolation, smoothing, queue and tree search; the existing tests of each stage use goals that are numbers", "anchors": ["local_planner/src/nodes/planner_functions.cpp: getCostMatrix, costFunction, getBestCandidatesFromCostMatrix, getSetpointFromPath", "local_planner/src/nodes/star_planner.cpp: buildLookAheadTree", "avoidance/src/common.cpp: polarToHistogramIndex"]}
