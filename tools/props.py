import json
P=[]
def p(title, statement, quantifier, why, anchors):
    P.append(dict(id="C%02d"%(len(P)+1), title=title, statement=statement, quantifier=quantifier, why_tests_cant=why, anchors=anchors))

C="avoidance/src/common.cpp"; CH="avoidance/include/avoidance/common.h"
# ---------- angles / polar
p("Angle wrapping is canonical",
  "wrapAngleToPlusMinus180 (and wrapAngleToPlusMinusPI) return, for every finite angle, the one angle in [-180,180) (resp. [-pi,pi)) that differs from the argument by a whole number of turns; wrapping is therefore idempotent and independent of how many turns were added.",
  "every finite angle and every whole number of added turns",
  "the range and the congruence must hold for every real angle, including the half-turn boundaries and arbitrarily many turns",
  [C+": wrapAngleToPlusMinus180, wrapAngleToPlusMinusPI"])
p("angleDifference is the signed shortest rotation",
  "angleDifference(a,b) is congruent to a-b modulo 360, lies in [-180,180), and no other angle congruent to a-b has a smaller absolute value; indexAngleDifference(a,b) of two angles that lie within one turn of each other is that absolute value. (The header promises a value in [0,180]; the function is signed.)",
  "every pair of finite angles",
  "two nested conditionals around fmod with four boundary cases; only a proof covers every pair and every number of turns",
  [C+": angleDifference, indexAngleDifference", CH+": angleDifference doc"])
p("wrapPolar keeps the direction and normalises it",
  "wrapPolar leaves the represented 3-D direction and the radius unchanged, and returns an elevation in [-90,90] and an azimuth in [-180,180); applying it twice is the same as once.",
  "every polar point with finite angles",
  "infinitely many angles in both coordinates, with an interaction (crossing a pole shifts the azimuth by half a turn)",
  [C+": wrapPolar, polarHistogramToCartesian"])
p("Histogram index and polar angle are mutually inverse",
  "polarToHistogramIndex always returns indices inside the histogram, maps every direction to the cell whose angular interval contains it, and maps the centre returned by histogramIndexToPolar(e,z) back to (e,z) for every cell and every admissible resolution.",
  "every direction, every admissible histogram resolution and every cell",
  "an out-of-range index is memory corruption; must hold for every float direction and all cells",
  [C+": polarToHistogramIndex, histogramIndexToPolar"])
p("Cartesian and polar coordinates are mutually inverse (histogram convention)",
  "polarHistogramToCartesian(cartesianToPolarHistogram(p,o),o) = p for all points p and origins o; the radius is the Euclidean distance and the angles lie in their documented ranges; conversely a polar point with positive radius and elevation inside (-90,90) is recovered up to azimuth turns.",
  "every pair of points in space",
  "continuous domain with singular points (origin, straight up/down)",
  [C+": cartesianToPolarHistogram, polarHistogramToCartesian"])
p("Cartesian and polar coordinates are mutually inverse (FCU convention)",
  "Expected: polarFCUToCartesian(cartesianToPolarFCU(p,o),o) = p. The code satisfies this only when p and o are at the same height: the two functions use opposite signs of elevation, so the height offset comes back mirrored. Proved: the exact value of the round trip for every p and o, its correctness at equal heights, and its failure elsewhere.",
  "every pair of points in space",
  "the repo's unit test only tries points at the height of the origin, where the mirror is invisible",
  [C+": cartesianToPolarFCU, polarFCUToCartesian", "avoidance/test/test_common.cpp: Common.polarFCUToCartesian"])
p("ENU and NED conversions are involutions",
  "toENU(toNED(v)) = v = toNED(toENU(v)), both preserve lengths, and yaw/pitch conversions invert each other; converting an orientation to NED and back to ENU yields the same rotation.",
  "every vector, angle and unit quaternion",
  "universally quantified algebraic law",
  [CH+": toNED, toENU, yawToNEDrad, yawToENUrad", C+": orientationToNED, orientationToENU, quaternionFromRPY"])
p("Yaw-rate command turns the short way",
  "getAngularVelocity(desired,current) is half of a rotation that takes current to desired (modulo a full turn) and, whenever current lies in [-pi,pi), has magnitude at most pi/2, i.e. it is the shortest rotation.",
  "every desired yaw and every current yaw in [-pi,pi)",
  "continuous domain, case split on sign and magnitude",
  [C+": getAngularVelocity"])
# ---------- histogram
HH="avoidance/include/avoidance/histogram.h"; HC="avoidance/src/histogram.cpp"
p("Histogram reads wrap around and never go out of bounds",
  "get_dist(e,z) is defined for all integers, depends only on e mod 180/res and z mod 360/res, and returns the value last written by set_dist to that cell (0 if none since construction or setZero); writes to one cell do not change any other; isEmpty is true exactly when no cell holds a value above the smallest positive normal float.",
  "every sequence of histogram operations, every cell and every integer pair of indices",
  "C++ % is negative for negative operands; needs every integer index and every history of writes",
  [HH+": wrapIndex, get_dist, set_dist", HC+": Histogram, setZero, isEmpty"])
p("Histogram resampling",
  "upsample throws unless the histogram is half resolution, downsample throws unless it is full resolution (and then nothing changes); upsample then downsample is the identity; downsampling preserves the average and a cell of a coarse histogram of non-negative distances is positive exactly if one of its four fine cells is.",
  "every histogram content",
  "universally quantified matrix law",
  [HC+": upsample, downsample"])
# ---------- FOV
p("Field-of-view membership",
  "A direction is inside a camera's yaw field of view exactly when it is within half the horizontal opening angle of the camera axis. The code satisfies this for every camera whose field of view does not cross the +-180 degree line (closed boundaries included); a camera that does cross it contains no direction between its two wrapped edges, shown with a witness.",
  "every camera yaw, opening angle and direction",
  "continuous domain, wrap-around boundary",
  [C+": pointInsideFOV, pointInsideYawFOV"])
p("isInWhichFOV / isOnEdgeOfFOV identify the unique camera",
  "isInWhichFOV returns true with index i exactly when camera i is the only camera that contains the direction, and otherwise returns false with index -1. isOnEdgeOfFOV returns true only with such an index, and -1 otherwise.",
  "every list of cameras and every direction",
  "arbitrary number of cameras and overlap patterns",
  [C+": isInWhichFOV, isOnEdgeOfFOV"])
p("scaleToFOV is a scale",
  "scaleToFOV returns a value in [0,1]; 0 for a direction outside every camera; 1 for a direction inside that is not on the edge of the field of view; on the edge it decreases from 1 on the camera axis to 0 at the border.",
  "every list of cameras with positive opening angles and every direction",
  "continuous domain, arbitrary camera lists",
  [C+": scaleToFOV"])
p("The detected field of view never shrinks",
  "Updating a FOV with any sequence of clouds never reduces its horizontal or vertical opening angle, an empty set of extremes changes nothing, and horizontal and vertical parts change independently; each new opening angle is at most 180 degrees horizontally.",
  "every initial FOV and every sequence of extreme-point sets",
  "property over all histories of point clouds",
  [C+": updateFOVFromMaxima"])
p("Point-cloud sanitising removes exactly the non-finite points",
  "removeNaNAndGetMaxima keeps exactly the points with three finite coordinates, in their original order, and every returned extreme point is one of the kept points and is extremal in its coordinate among all kept points whose coordinates are within the +-9999 sentinel.",
  "every point cloud, with non-finite coordinates in any positions",
  "all cloud sizes and NaN patterns; in-place compaction",
  [C+": removeNaNAndGetMaxima"])
p("Trajectory message carries exactly one valid waypoint",
  "transformToTrajectory marks point 1 valid and all others invalid, copies pose position, linear velocity and yaw into it, sets the yaw rate to the negated angular velocity and fills every other field with NaN; transformToBezier marks all five valid and its control points decode back to the inputs.",
  "every pose, twist and set of control points",
  "universally quantified field-by-field contract",
  [C+": transformToTrajectory, transformToBezier, fillControlPoint, fillUnusedTrajectoryPoint"])
# ---------- transform buffer
TB="avoidance/src/transform_buffer.cpp"
p("Transform buffer stays ordered and bounded",
  "After any sequence of insertions, the stored transforms of each frame pair have strictly increasing time stamps and span no more than the configured buffer duration; an insertion that is not newer than the newest stored transform is rejected and changes nothing; an insertion for one frame pair does not change another (distinct keys).",
  "every sequence of insertions for every frame pair and every non-negative buffer duration",
  "all histories, including out-of-order stamps",
  [TB+": insertTransform, getKey"])
p("Transform lookup never extrapolates",
  "getTransform succeeds only when the requested time lies between the oldest and newest stored stamp, returns the stored transform exactly when the time equals a stored stamp (with at least two entries), and otherwise interpolates between the two stored transforms that bracket the time with a ratio in [0,1]. With a single stored transform the lookup fails even at its exact stamp (shown).",
  "every reachable buffer and every query time",
  "all histories and query times; reverse scan loop boundaries",
  [TB+": getTransform, interpolateTransform"])
p("Frame pairs do not alias",
  "Expected: transforms registered for different (source,target) pairs are never confused. The string key source+\"_to_\"+target is not injective: a witness pair of different frame pairs shares a key. Proved injective for frame names in which \"_to_\" (also across the joint) does not occur.",
  "every pair of frame-name pairs",
  "all strings",
  [TB+": getKey"])
# ---------- node / usm
AN="avoidance/src/avoidance_node.cpp"
p("State-machine engine",
  "One iteration runs the current state once; REPEAT keeps the state; any other transition moves to the table entry, or to the error state if the pair is not in the table. Over any run the state is always one reachable in the table.",
  "every machine, every run of transitions",
  "all runs",
  ["avoidance/include/avoidance/usm.h: iterateOnce"])
p("Data-loss watchdog",
  "checkFailsafe: after the start-up period, if data is older than the termination timeout the status becomes FLIGHT_TERMINATION; otherwise if older than the critical timeout it becomes CRITICAL (and hover is requested when a position was received); younger data does not change the status; before the start-up period nothing changes. Over a run with no newer data, ACTIVE is never re-entered by the watchdog and escalation is monotone.",
  "every data age, uptime and sequence of checks",
  "all timing sequences",
  [AN+": checkFailsafe"])
p("PX4 parameter intake",
  "Each PARAM_VALUE message updates exactly the model parameter of that name and no other; unknown names change nothing; after all required parameters have been seen the parameter poll switches from every 5 s to every 30 s, never before.",
  "every sequence of parameter messages",
  "all histories",
  [AN+": px4ParamsCallback, checkPx4Parameters"])
p("Mission speed",
  "The mission item speed used is that of the last DO_CHANGE_SPEED item at or before the current waypoint; later items have no effect; with none, the previous value stays.",
  "every mission list and every current index",
  "all lists",
  [AN+": missionCallback"])
# ---------- local planner functions
PF="local_planner/src/nodes/planner_functions.cpp"; LP="local_planner/src/nodes/local_planner.cpp"
p("Processed cloud contains only relevant points",
  "Every point of the processed cloud is at a distance strictly between the minimum and maximum sensor range and is either a new input point whose 2-degree cell has received at least the configured number of points, or a remembered point younger than the maximum age, outside the current field of view; at most one point per 2-degree cell is produced.",
  "every set of clouds, previous cloud and parameters",
  "all clouds, order independence",
  [PF+": processPointcloud"])
p("Obstacle histogram holds the mean distance",
  "generateNewHistogram stores in each cell the arithmetic mean of the distances of the points whose direction falls into that cell, and 0 in cells without points.",
  "every cloud and position",
  "all clouds and orders",
  [PF+": generateNewHistogram"])
p("Elevation compression keeps the nearest obstacle",
  "compressHistogramElevation stores, per azimuth, the minimum of the positive distances within the vertical field of view, and 0 if there is none.",
  "every histogram",
  "all matrices",
  [PF+": compressHistogramElevation"])
p("getBestCandidates returns the k cheapest cells in ascending order",
  "For every matrix and every k between 1 and the number of cells, the result has exactly k entries, sorted by ascending cost, and every cell not returned costs at least as much as every returned one. For k = 0 the code reads the top of an empty queue (undefined).",
  "every cost matrix and every k",
  "all matrices, ties included",
  [PF+": getBestCandidates"])
p("Obstacle cost is bounded and monotone",
  "In costFunction, the distance cost is 0 without an obstacle, lies between 0 and 10000 and never increases with distance; all other cost terms are non-negative for non-negative parameters.",
  "every direction, obstacle distance and cost parameters",
  "continuous domain",
  [PF+": costFunction"])
p("The cost matrix is completely filled",
  "For every step size, the coarse-to-fine interpolation of getCostMatrix assigns every cell, leaves sampled cells at their exact cost and gives every other cell a value between the two samples that enclose it.",
  "every grid size and step size",
  "all sizes; index arithmetic at the last block",
  [PF+": getCostMatrix"])
p("Cost smoothing respects the wrap-around topology",
  "padPolarMatrix reproduces the matrix in the middle and pads it so that azimuth wraps and elevation mirrors across the pole with half-turn shift; smoothing never turns a non-negative matrix negative, and preserves constants up to the kernel sum.",
  "every matrix and smoothing radius",
  "index arithmetic over all sizes",
  [PF+": padPolarMatrix, smoothPolarMatrix, getConicKernel"])
p("Setpoint interpolation stays on the path",
  "getSetpointFromPath returns false when the path has fewer than two nodes or its time has run out; otherwise the setpoint lies on the segment that corresponds to the elapsed time.",
  "every path, elapsed time and speed",
  "all path lengths",
  [PF+": getSetpointFromPath"])
p("Obstacle-distance message",
  "Bin i of the published obstacle distances is NaN exactly if the direction is outside the field of view, the histogram distance if that exceeds the minimum sensor range, and max range + 0.01 otherwise; the 60 bins are a rotation of the histogram's azimuth columns, no column is lost or duplicated.",
  "every histogram, field of view and range setting",
  "all contents",
  [LP+": updateObstacleDistanceMsg"])
p("Speed is limited by cruise speed and stopping distance",
  "The velocity requested in getAvoidanceOutput never exceeds the mission or cruise speed, and from that speed the vehicle can stop within the maximum sensor range under the configured jerk and acceleration.",
  "every positive parameter set",
  "continuous quadratic with square root",
  [LP+": getAvoidanceOutput"])
p("Closest point on the mission line",
  "The closest_pt computed in determineStrategy lies on the line from the previous to the current goal and is the orthogonal projection of the position; with coincident goals it is the goal.",
  "every goal, previous goal and position",
  "continuous domain, degenerate case",
  [LP+": determineStrategy"])
SP="local_planner/src/nodes/star_planner.cpp"
p("Look-ahead tree is a tree and the returned path is a root path",
  "Every node's parent index is smaller than its own, the returned path starts at an existing node and follows parents to the vehicle position, so its construction always terminates; consecutive path points are one tree step apart; new nodes are at least 0.2 m from every node already in the tree (strictly further than 0.2 m); the tree has at most 1 + expansions*children nodes and no node is expanded twice.",
  "every obstacle cloud, cost function and configuration",
  "all expansions histories",
  [SP+": buildLookAheadTree"])
TS="local_planner/src/utils/trajectory_simulator.cpp"
p("Simulated trajectories respect vehicle limits",
  "Every simulated state has horizontal speed at most the horizontal maximum and vertical speed within the vertical limits up to one integration step; the number of steps covers the requested duration; constant-jerk integration is exact and composes over time.",
  "every start state, goal direction, limits and duration",
  "all durations and states",
  [TS+": generate_trajectory, simulate_step_constant_jerk, norm_clamp, xy_norm_z_clamp"])
WG="local_planner/src/nodes/waypoint_generator.cpp"
p("Waypoint mode selection",
  "The local waypoint generator's planner state is always one of TRY_PATH, DIRECT, LOITER, ALTITUDE_CHANGE, every pair of state and emitted transition is in the transition table, LOITER is entered whenever a loiter is requested and is left only when the request ends.",
  "every sequence of inputs",
  "all runs",
  [WG+": chooseNextState, runCurrentState, run*"])
p("Setpoint speed is bounded",
  "The velocity setpoint produced by the waypoint generator has norm at most the planner's speed and at most the distance to the goal; the position setpoint lies at exactly that distance from the vehicle, in the chosen direction.",
  "every position, goal and planner output",
  "continuous domain",
  [WG+": adaptSpeed, getPathMsg"])
p("Setpoint smoothing",
  "smoothWaypoint and nextSmoothYaw keep a constant target fixed, follow the target exactly when smoothing is disabled, and always move by the integrated velocity.",
  "every filter state, time step and target",
  "all runs",
  [WG+": smoothWaypoint, nextSmoothYaw"])
LN="local_planner/src/nodes/local_planner_nodelet.cpp"
p("Planner runs only on a complete sensor frame",
  "The worker starts a planning cycle only when every camera has delivered a transformed cloud since the previous cycle, hands exactly those clouds to the planner, and marks them consumed.",
  "every number of cameras and every interleaving of camera and worker events",
  "all interleavings",
  [LN+": threadFunction, pointCloudCallback, pointCloudTransformThread, updatePlannerInfo"])
p("No setpoints while degraded",
  "Setpoints are sent only while the system status is ACTIVE. Expected in addition: in the critical state the vehicle is commanded to hover. In the code the hover flag is cleared at the start of each command loop and setpoints are sent only in ACTIVE, so a loiter setpoint caused by missing data is never sent (shown).",
  "every data age and status",
  "all timing sequences",
  [LN+": cmdLoopCallback, calculateWaypoints", AN+": checkFailsafe"])
p("Lock order is deadlock free",
  "All threads of the local planner nodelet acquire its two nested mutexes in one global order, so no reachable state has a cycle of threads waiting for each other.",
  "every interleaving",
  "schedules",
  [LN+": threadFunction, cmdLoopCallback"])
# ---------- safe landing
SL="safe_landing_planner/src/nodes/safe_landing_planner.cpp"; GH="safe_landing_planner/include/safe_landing_planner/grid.hpp"
p("Landing grid indices are always in range",
  "A point accepted by the inside-grid test is mapped to indices inside the grid, for every grid size and cell size, and the cell of that index contains the point.",
  "every point, vehicle position, grid and cell size",
  "floating geometry; memory safety",
  [SL+": isInsideGrid, computeGridIndexes", GH+": Grid"])
p("Cell statistics are exact",
  "After processing any cloud, each cell's mean, variance and counter are the arithmetic mean, population variance and number of heights of the points that fell into it, independently of their order.",
  "every cloud",
  "all sequences; online algorithm",
  [SL+": computeOnlineMeanVariance, processPointcloud"])
p("A cell is landable only if dense and flat",
  "Before smoothing, a cell is landable exactly if it has at least the required number of points and its standard deviation is at most the threshold; after smoothing a landable cell has at most the allowed number of neighbours whose mean height differs by more than the threshold.",
  "every grid content and parameters",
  "all grids",
  [SL+": isLandingPossible"])
p("Temporal filtering of the grid is a convex combination",
  "combine produces, in every cell, alpha*new + (1-alpha)*old of mean and variance-like layers, hence values between old and new for alpha in [0,1]; grids of different size are never combined.",
  "every pair of grids and alpha",
  "all contents",
  [GH+": combine, resize"])
SW="safe_landing_planner/src/nodes/waypoint_generator.cpp"; SWN="safe_landing_planner/src/nodes/waypoint_generator_node.cpp"
p("Never land on an unchecked area",
  "In every run, the landing state is entered only after grid evaluation found the whole landing patch landable in the latest evaluated grid and the vehicle then went to it; once landing, the state is left only by a reset.",
  "every sequence of grids, positions, modes and resets",
  "all histories",
  [SW+": chooseNextState, updateSLPState, run*"])
p("Landing-patch evaluation is memory safe and exact",
  "Grid evaluation inspects only patches fully inside the grid and reports can_land exactly if the inspected area contains a patch without any non-landable cell.",
  "every grid size and patch size",
  "all sizes",
  [SW+": runEvaluateGrid, evaluatePatch"])
p("Disarming or leaving the landing mode resets the landing procedure",
  "On every disarm or mode change, at the next iteration the state machine is back in its initial state.",
  "every history",
  "all histories",
  [SWN+": stateCallback"])
p("Published landing setpoint is flagged valid only when complete",
  "Expected: a trajectory setpoint is marked valid only if each axis has a finite position or velocity. The code has a misplaced parenthesis that makes the check on z vacuous: shown with a witness, and the exact condition is proved.",
  "every setpoint",
  "NaN patterns",
  [SWN+": publishTrajectorySetpoints"])
p("Height percentile of the landing area",
  "The landing height is the element of rank round(0.8 n) of the patch means, defined for every n >= 3; for n = 1 the index is out of bounds.",
  "every patch",
  "all sizes",
  [SW+": landingAreaHeightPercentile"])
# ---------- global planner
GC="global_planner/src/library/cell.cpp"; GP="global_planner/src/library/global_planner.cpp"; ST="global_planner/include/global_planner/search_tools.h"; GN="global_planner/src/nodes/global_planner_node.cpp"
p("Cells partition space",
  "The cell of a position is the unique cell whose box contains it; the cell of a cell's centre is the cell itself; neighbours are symmetric and at the right distance; cell equality is decided by indices.",
  "every position and cell",
  "all reals",
  [GC+": Cell, toPoint, getNeighbors", "global_planner/include/global_planner/cell.h"])
p("A returned global path is connected and legal",
  "Whenever the search reports success, the path ends at the goal, begins at the current cell (preceded by the given parent), every consecutive pair of cells are legal neighbours according to the planner, and its cost is the sum of the edge costs; the search stops after at most the configured number of iterations.",
  "every map, start, goal, heuristic",
  "all graphs and search histories",
  [ST+": findSmoothPath", GP+": getOpenNeighbors, isLegal"])
p("Path simplification keeps the endpoints and the order",
  "simplifyPath returns a path whose points all occur in the input in the same order and which starts and ends like the input.",
  "every path",
  "all lengths",
  [ST+": simplifyPath"])
p("Iterative replanning terminates",
  "findPath's outer loop terminates whenever the minimum overestimation factor exceeds 1; with factor exactly 1 it can loop forever (witness).",
  "every configuration",
  "non-termination can't be tested",
  [GP+": findPath"])
p("Back-track history",
  "The recorded back-track path never contains the same cell twice in a row, begins at the first cell, and goBack returns it in reverse.",
  "every sequence of positions",
  "all histories",
  [GP+": setPose, goBack"])
p("Risk cache coherence",
  "A cached cell risk equals the risk recomputed from the current map. The code clears the cache only on a new full map: after other changes a stale value is returned (shown).",
  "every history of map updates and queries",
  "all histories",
  [GP+": getRisk, updateFullOctomap"])
p("Waypoint queue is first-in first-out",
  "Goals queued from clicks and files are visited in the order given, none is lost or duplicated.",
  "every sequence of goal events",
  "all histories",
  [GN+": popNextGoal, positionCallback, readParams"])
p("Map updates are rate limited",
  "Two accepted full-map updates are never closer than 0.2 s.",
  "every arrival sequence",
  "all histories",
  [GN+": octomapFullCallback"])
p("Bayes update and altitude prior stay probabilities",
  "posterior of two probabilities in (0,1) is in (0,1), symmetric, and neutral for 0.5; the altitude prior lookup stays inside its table for all cells.",
  "all reals, all cells",
  "continuous domain",
  ["global_planner/include/global_planner/common.h: posterior", GP+": getAltPrior"])
p("Bezier smoothing stays inside the control polygon",
  "Every point of the quadratic Bezier curve for t in [0,1] lies in the convex hull of its three control points, and the curve starts and ends in the outer two.",
  "all control points and t",
  "continuous domain",
  ["global_planner/include/global_planner/bezier.h: quadraticBezier"])
exec(open('/tmp/w/ext.py').read())
with open('/verif/properties.jsonl','w') as f:
    for x in P: f.write(json.dumps(x)+"\n")
print(len(P))
