# Formal model of PX4-Avoidance in Lean 4

Source modelled: `/repo` (PX4/PX4-Avoidance, pinned).  Nothing of it is run here;
the tie between code and model is the citation (file and lines) on every
definition.

## 1. Trusted base

* Lean 4.33.0's kernel, and the axioms `propext`, `Classical.choice`,
  `Quot.sound` (the only ones any theorem depends on, section 5).
* Mathlib's definitions of the ordered fields, `Int.floor`, the real numbers,
  `Real.sin/cos/sqrt`, `Complex.arg` (used for `atan2`), as far as they occur in
  statements.
* The reading of the C++ sources (the model).

## 2. General modelling decisions

| C++ | model |
|---|---|
| `float`/`double` arithmetic | exact arithmetic in an ordered field `K` with floor (the theorems are for *every* such field, so for `ℚ` and `ℝ`), or `ℝ` when sqrt/trigonometry occurs. Rounding, overflow, denormals, ±0 are **not** modelled, except that `Rounding` (C123) has the angle and histogram-index helpers with the rounding of an arbitrary accurate arithmetic. |
| NaN / infinite inputs | where the code branches on them (`isfinite`, `isnan`, "NaN as unset"), an explicit type with a NaN value whose comparisons are all false |
| `int`, `size_t` | `Int`/`Nat`; wrap-around is modelled only where the code relies on or suffers from it (signed/unsigned comparison in the altitude prior) |
| undefined behaviour (out-of-bounds, `front()`/`top()` of an empty container, negative sqrt cast to int) | a distinct outcome: `none`, never a default value |
| exceptions | `Except` |
| mutation | function returning the new state |
| loops | structural recursion / folds; `while` loops with an explicit step relation or fuel plus a proof that the fuel suffices |
| ROS time | a number of seconds in `K`; callbacks are atomic events (they hold the mutex) |
| tf, octomap, rviz, mavros transport | parameters of the model, or not modelled |
| threads | explicit interleaving transition systems for the worker/camera hand-over and the lock order |

Every module `Verif/X.lean` holds the model of one area, `Verif/XLemmas.lean`
helper lemmas (when there are enough to separate), `Verif/XProps.lean` the property
theorems with a non-vacuity `example` beside each.

## 3. Plan per property

Status is kept in `MANIFEST.json`; what a `_partial` theorem misses is said in its
doc comment and in the manifest note.

| Id | What is modelled | How it is proved |
|---|---|---|
| C01 | both wrap functions over any floor field | floor inequalities, uniqueness by integer argument |
| C02 | `angleDifference`, `fmod` (truncated remainder) | case split, minimality by integer argument |
| C03 | `wrapPolar` over ℝ | range by case split; direction by trigonometric identities |
| C04 | index/angle conversions | floor arithmetic; for all resolutions with `180 % (2 res) = 0` |
| C05, C06 | polar/Cartesian conversions over ℝ with `atan2 = Complex.arg` | `arg` lemmas; C06 is false of the code: exact mirrored value + witness |
| C07 | NED/ENU | algebra; quaternion product over ℝ |
| C08 | `getAngularVelocity` | case split |
| C09, C10 | histogram as function on index pairs, op histories | induction over operation lists; algebra |
| C11–C14 | FOV functions | case split, list induction; C11's full claim is false of the code: witness + partial |
| C15 | point-cloud filter with NaN type | loop invariant |
| C16 | message structures with NaN fields | algebra |
| C17–C19 | transform buffer as map of deques | invariant by induction over insertions; key injectivity on strings |
| C20 | USM engine generic in state type | induction over runs |
| C21–C23 | AvoidanceNode | decision logic, induction over message lists |
| C24–C31 | planner functions | folds with loop invariants |
| C32–C34 | LocalPlanner | algebra; sqrt for the speed limit |
| C35 | look-ahead tree with abstract cost/candidate oracle | invariant by induction over expansions |
| C36 | trajectory simulator | algebra over ℝ; induction over steps |
| C37–C39 | waypoint generator (`WpGenLaw`: waypoint, speed and smoothing law per mode) | transition system; algebra |
| C40–C42 | nodelet threads | interleaving transition systems, invariants |
| C43–C46 | landing grid | floor arithmetic, Welford invariant, matrix folds |
| C47–C51 | landing waypoint generator | transition system, index arithmetic; C50 and n=1 of C51 are false of the code |
| C52 | `Cell` of cell.h/cell.cpp over any floor field | floor arithmetic; neighbours and box containment by integer argument |
| C53, C72 | `findSmoothPath` with map, heuristic and queue as parameters; the queue may return *any* pending entry | search invariants by induction on the fuel; termination by a decreasing measure; completeness by a frontier invariant |
| C54 | `simplifyPath`, `isSmaller...` cost of edges | list induction; cost bound by induction over passes; witnesses for the two violations |
| C55 | `reverseSearch`, `findPath` schedule of overestimation factors | induction over the schedule; exact termination condition; non-termination as a fixed point |
| C56–C58 | the planner's and the node's mutable state as an event transition system | invariants over histories; violated parts as concrete histories |
| C59 | the map callback with its time stamps | induction over arrivals |
| C60 | `posterior`, `getAltPrior`, `getRisk`, `risk` flow over neighbours (`GpMovesProps`: the law of each) | algebra; table bounds |
| C61 | `bezier.h` and the smoothing of paths | polynomial identities; derivatives over ℝ; list induction |
| C62, C63 | quaternions, histogram columns | trigonometric identities over ℝ |
| C64, C65 | `LocalPlanner` publishing | transition system; algebra |
| C66 | the second-order filter of `smoothWaypoint` as a linear recurrence | eigenvalue bound by a Lyapunov (quadratic form) argument; divergence from an eigenvalue < -1 |
| C67 | goals of the nodelet, planner and waypoint generator | invariant over histories |
| C68–C70 | landing waypoint generator and the grid message | run invariants, index arithmetic |
| C71 | the landing planner node: status logic, worker/command-loop interleaving, start-up | exact decision; chain of gaps by induction; invariant of an interleaving transition system; violated parts as schedules, one of them unbounded |
| C73 | costs, heuristics and both searches of the global planner | admissibility per move, then the classical ε-argument over an arbitrary competing path |
| C74 | `Node::getRotation` etc. | integer case analysis |
| C75 | `Node::getCells`, `isLegal`, risk of an edge | reduction of all real segments to 49 grid points, kernel evaluation for the 729 displacements shorter than 5 cells, lifted to all positions |
| C76 | `find2DPath`, `findPathOld` | search invariants as for C53 |
| C83 | the planner's `SearchProblem` instance: neighbours, `isLegal`, `getEdgeCost`, `getPathInfo`, published risks (`GpMoves`, `GpMovesProps`) | laws against separate specifications (`Offered`, `Examined`); the summary by induction along the path cost of the search |
| C84 | `processRawGrid`, `publishSerialGrid`, sequence numbers (`LandingGrid`, `LandingReplayProps`) | the message read as a table (`GridMsg.Says`, `WellFormedMsg`); induction over the cell loop; record + replay composed |
| C85 | `dynamicReconfigureSetParams`, `runSafeLandingPlanner`, `isLandingPossible` (`LandingConfigProps`) | invariant over all event histories (stored = configured; pending flag or sizes in use), then the laws of C45 / C46 with the configured values |
| C86 | whole `LocalPlanner` with its `StarPlanner` as a state machine of setters and runs (`RunPlanner`) | invariant `Knows` over all event histories; a run then is the composition of the functions of C24, C25, C29, C32, C35 (`RunPlannerProps`); definedness from C29 / C32 / C35 (`RunDefinedProps`) |
| C87 | same state machine (`SeenObstacleProps`) | 2° cells nest in 6° cells, a kept point makes the mean distance positive, C28/C29 bound the cost from below; C27 (best candidates) and the tree invariant of C35 exclude the direction |
| C88 | same state machine (`LpMemoryProps`), exact law of `processPointcloud` (`CloudExactProps`) | induction over histories: source and age of every point; one point per cell (C24) identifies the carried point while hovering |
| C89 | the lock / access programs of all nodelet threads (`Races`, `NodeletRaces`) | lockset theorem: if two sites of a datum share a held mutex in all pairs, no reachable state races (induction over the reach relation); converse by constructing the schedule |
| C90 | worker, transform threads and callbacks with condition variables whose notifications are lost when nobody waits (`Wakeup`, `WakeupProps`) | infinite fair runs; "until" lemma from the scheduling of each thread; refinement to the hand-over model of C40 for the frames; round robin as a fair run |
| C91 | the nodelet end to end: node state, planner, waypoint generator and watchdog driven by all callbacks, the worker and the command loop (`NodeRun`) | invariant `NodeKnows` over all event histories (newest of each kind of event); the planner's part by C86, the generator's by C37–C39 (`NodeRunProps`) |
| C92 | same | induction over histories with C33, C38 and C86 (`NodeSpeedProps`); the uninitialised cruise speed as a three-round witness |
| C93 | same, with what the cameras saw | C87 through the calls the worker makes to the planner, then C91 (message) and C37/C31 (point on the path) (`NodeAvoidProps`); straight flight at an obstacle already taken over as a three-round witness |
| C94 | same, with the distances sent to the autopilot | C86 (message), C26 (compression), C32 (bins), C63 (view), C25 (mean) composed to a law of the message for any history (`NodeScanProps`), then C24/C88 for the points behind it; two node-level witnesses |
| C95 | same, with the status of the companion process | step law, then induction over the history (`NodeStatusProps`) |
| C96 | images of `local_planner` and their publication (`Display`); bytes as numbers, conversions of floats to bytes as whole part | per cell, then along the run of the planner (`DisplayProps`) |
| C97 | markers of the search tree, the plan, the distances and the cameras (`Display`); colours and points only | tree invariant of the run; direct (`MarkerProps`) |
| C98 | recording and measures of paths in `global_planner` (`GpPath`) | induction over messages and paths (`GpPathProps`) |
| C99 | threads as programs over mutexes, exit flags and joins, any interleaving (`Shutdown`); timed waits always come back | erasure to the lock language of C42 for freedom from deadlock, a measure of the steps left after the flag is set, strong fairness (`ShutdownProps`) |
| C100 | lock / access programs of the threads of the global planner node and of the landing planner node (`GlobalRaces`) | lockset theorem of C89, confinement to one thread, explicit schedules for the races (`GlobalRacesProps`) |
| C101 | one transition system for the whole global planner node with its record of events (`GpRun`), built from the models of C51-C60, C76, C77 | induction over runs with an invariant linking cache, last path found and poses followed (`GpRunProps`), explicit runs for the violations (`GpRunMore`) |
| C102 | `WorldLoader`: the loader with environment, `stat` and parsed file as parameters, and what RViz keeps | characterisation of the loop and of the search for files by induction, history of reloads by induction (`WorldLoaderProps`) |
| C103 | `LandingDisplay`: colours with NaN hues, markers, cloud, path and landing area | HSV against the standard formula, injectivity of the hue circle, loops by induction, histories of poses by induction (`LandingDisplayProps`) |
| C104 | `GpAsk`: `clickedPointCallback` and `printPointStats` on the state of the whole node (`GpRun`) | the memory of answers as a function, bisimulation of runs that differ in it (`GpAskProps`) |
| C105 | `NodeShow`: the drawing members and the four drawing functions on top of the node of `NodeRun` | one invariant over histories (`showKnows`, `NodeShowProps`) |
| C106 | `LandingSystem`: planner node, topic (lossy queue) and waypoint generator node, over the models of `LandingGrid` and `Slp` | three invariants (planner, wire, node) by induction over runs; the node's part of a run is an `SlpRun`, so that C47 applies; sightings are mapped injectively to clouds (`LandingSystemProps`) |
| C107 | `LandingSystem` (as C106) | the loiter goal is the position at the first iteration of the phase, the evaluation moves it by whole cells, the middle of the grid is within half a cell of its middle cell; composed with the evidence of C106 (`TouchdownProps`) |
| C108 | `GpRun` (runs of the node), `depthCells` | induction over runs: nothing but clouds changes the obstacle store, nothing but maps the map; the risk answered belongs to a world since the last map (C101), hence one that has the obstacle (`GpRunObstacles`) |
| C109 | `LandingSystem` (both nodes and the wire), C82 | the filtered heights approach the ground by the factor α per cloud (C46), hence the verdicts of the middle cells become "landable" (C44) and stay so; then C82, step by step in both nodes (`FlatLandingProps`) |
| C110 | `NodeRun` (the node), C37, C86, C88, C91, C93 | an empty histogram keeps the old path, the setpoint of a used-up path is refused (C31), at most two cycles lead to DIRECT (C37), the adapted setpoint is on the segment; ages of remembered points over runs (C88) (`ClearViewProps`) |
| C111 | `GpRun` (the node), `GpSearch`, `GpFallback` | permitted moves as a relation on places, reachability; completeness and effort of the search (C63, C64 style) carried through the retry loop and the last resort to every cycle of every run (`GpGiveUp`) |
| C112 | `NodeRun` (the node), C13, C38, C39, C91, C92, C110 | the vehicle as a relation between messages and the poses that follow; the azimuth of the waypoint is the yaw told before (complex arguments), so the field-of-view factor is that of straight ahead; a lower bound of each step from the speed filter; induction over the rounds (`ReachGoalProps`, runs in `ReachGoalExamples`) |
| C113 | `GpRun` (the node), C77, C78, C101 | the vehicle as a relation between commands and the positions that follow; between two commands either a goal is passed or the vehicle is closer by a fixed amount; induction over the rounds with the pair (poses to come, distance) (`GpArriveProps`, flights in `GpArriveExamples`) |
| C114 | `NodeRun` (the node), C37, C91, C92, C112 | the vehicle as a relation between setpoints and the poses that follow; one cycle of the generator in the climbing mode gives the setpoint exactly; induction over the rounds (`ClimbProps`, flights in `ClimbExamples`) |
| C115 | `NodeRun` (the node), C37, C91, C92, C114 | the vehicle as a relation between setpoints and the poses that follow; which mode the generator is in and which place it remembers, by induction over the rounds; one cycle gives the setpoint exactly (`LandTakeoffProps`, flights in `LandTakeoffExamples`) |
| C116 | `NodeRun` (the node), C37, C39, C91, C114 | the filter from one round to the next in terms of the messages; per axis a convex combination of its last speed and a bounded term (bound), and a sum that grows by a fixed amount (violation), both by induction over the rounds (`SmoothSpeedProps`, flights in `SmoothSpeedExamples`) |
| C117 | `MockData` | the nested loops as a product of two ranges; the loop over the message by induction over the points written (`MockDataProps`) |
| C118 | `LocalAsk`, `Polar` | the remainder of C++ as `Int.tmod`, linear integer arithmetic; atan of a quotient as the argument of a complex number (`LocalAskProps`) |
| C119 | `WpGen`, `NodeRun` | the closed loop of C115 with the return as the reason for the change of altitude (`change_round`), induction over the rounds (`ReturnProps`, `ReturnExamples`) |
| C120 | `LandingGrid`, `Slp`, `LandingSystem` | invariant of both nodes and of the messages in transit (`SysSafe`), induction over the history; the other direction by one explicit history (`LandingSafeProps`) |
| C121 | `RunPlanner` | the failing node of a tree is one of its nodes and so at one of countably many places (`NearGoalDefined`: C35_defined_near, C86_run_defined_near); induction over the history (`LpDefinedProps`) |
| C122 | `GpRun`, `GpHeur` | induction over the run; a permitted move ends above the ground because the risk of a ground cell alone exceeds the maximum; searches with heuristics that agree on permitted nodes are equal (`GpAccept`) |
| C123 | `Rounding`: the helpers operation by operation over an arbitrary arithmetic | forward error analysis: every operation off by a bounded amount, floors and clamps by cases (`RoundingProps`) |
| C124 | `WpOpen`: a cycle of the waypoint generator with a goal of NaN height | cases of the four states, frame lemmas, induction over the rounds (`WpOpenProps`) |
| C125 | `OpenPlan`: cost matrix, candidates and tree search with NaN costs (`none`) | the interpolation keeps NaN rows, the queue keeps the first cells, no node is ever cheaper so the search stops after one expansion (`OpenPlanProps`); following such a plan with the generator of C124 (`OpenFlightProps`) |
| C81 | one iteration of the landing generator per phase: setpoint, next phase, goal; message effects | case analysis of the iteration; first-match lemma for the ring search |
| C82 | rounds of pose, published grid and iteration | phase invariant over the 25 rounds for arbitrary sizes and parameters; the blocked state as an invariant with a reachable witness |
| C77–C80 | the global planner node's setpoints, path following, path message | algebra over ℝ; run invariants; list induction |

## 4. What is modelled and what is not

Modelled (function by function; the citation is on each definition):

| Source | Modules |
|---|---|
| `avoidance/src/common.cpp`, `include/avoidance/common.h` | `Angles`, `Polar`, `Fov`, `Cloud`, `Messages` |
| `avoidance/src/histogram.cpp`, `include/avoidance/histogram.h` | `Histogram` |
| `avoidance/src/transform_buffer.cpp` | `TransformBuffer` |
| `avoidance/include/avoidance/usm.h` | `Usm` |
| `avoidance/src/avoidance_node.cpp` | `AvoidanceNode` |
| `local_planner/src/nodes/planner_functions.cpp` | `ProcessCloud`, `HistGen`, `Candidates`, `Cost`, `CostMatrix` |
| `local_planner/src/nodes/local_planner.cpp` | `LocalPlanner`, `RunPlanner` |
| `local_planner/src/nodes/star_planner.cpp`, `tree_node.cpp` | `StarPlanner` |
| `local_planner/src/utils/trajectory_simulator.cpp` | `Simulator` |
| `local_planner/src/nodes/waypoint_generator.cpp` | `WpGen`, `WpGenSpeed`, `WpGenSmooth` |
| `local_planner/src/nodes/local_planner_nodelet.cpp` | `Nodelet`, `NodeRun`, `Locks`, `NodeletLocks`, `Races`, `NodeletRaces`, `GoalRace`, `Wakeup` |
| `safe_landing_planner/include/.../grid.hpp`, `src/nodes/safe_landing_planner.cpp` | `LandingGrid` |
| `safe_landing_planner/src/nodes/waypoint_generator.cpp`, `waypoint_generator_node.cpp` | `Slp` |
| `safe_landing_planner/src/nodes/safe_landing_planner_node.cpp` | `SlpNode`, (`publishSerialGrid`) `LandingGrid` |
| `global_planner/src/library/cell.cpp`, `node.cpp`, `global_planner.cpp` | `GpCell`, `GpNode`, `GpHeur`, `GpMoves`, `GpState`, `GpReplan` |
| `global_planner/include/global_planner/search_tools.h` | `GpSearch`, `GpSimplify`, `GpFallback` |
| `global_planner/include/global_planner/bezier.h`, `common_ros.h` | `GpBezier` |
| `global_planner/src/nodes/global_planner_node.cpp` | `GpState`, `GpFollow`, `GpRun` |
| `avoidance/src/rviz_world_loader.cpp` | `WorldLoader` |
| `safe_landing_planner/src/nodes/safe_landing_planner_visualization.cpp`, `landingAreaVisualization` | `LandingDisplay` |

Not modelled: floating-point rounding (except in the angle and histogram-index helpers, `Rounding`, C123), overflow, denormals; weak-memory effects of
the unsynchronised reads (interleavings are sequentially consistent); wall-clock
timing of threads; octomap's tree, tf's interpolation, pcl, ROS transport (all
parameters or arbitrary inputs); the stamps, frames and namespaces of displayed markers, and the displays of
the local planner beyond those named in the tables;
launch files, Gazebo; dynamic-reconfigure transport; memory allocation; the
templates nobody instantiates (`pathToTriplets`, `bezierFromTwoSpeeds`, the latter
would not compile), `getRiskOfCurve` (never called); `printPathStats` of `analysis.h` (output only, its call is commented out).

## 5. Axioms

`#print axioms` of every theorem in `MANIFEST.json` lists only `propext`,
`Classical.choice`, `Quot.sound` (or fewer).  No axiom is declared in `Verif`.
`decide +kernel` is used for concrete examples, for the finite facts of
`GpEdgeFinite` (the kernel evaluates; no compiled code), nowhere as the proof of
an unbounded claim.

## 6. Findings: places where the code does not do what its user would expect

Each is a theorem (suffix `_violated` or `_witness`, or named in the property).

* C06 height mirrored by the FCU polar round trip.  C11 cameras whose opening crosses ±180°.  C19 key of the transform buffer is not injective.
* C41 a hover status is never accompanied by waypoints; termination is revoked.  C47 landing without a check after a late goal or mode message.  C50 misplaced parenthesis in the validity flag.  C64 stale obstacle distances after CP_DIST becomes 0.  C66 smoothing diverges for slow loops.  C67 goals diverge after a repeated item.  C68 below the loiter height the vehicle is sent down.
* C54 the node swaps `simplify_margin` and `simplify_iterations`; the new edge is not checked.  C55 minimum factor 1 with the start inside the goal never ends, holding the mutex; maximum below minimum means no search.  C56 nothing is recorded before the first goal, one cell forgotten on the way back.  C57 stale risks.  C58 the mission goal is given up when blocked (also in the first cycles, before any map).
* C60 prior below ground; risk heuristic reads outside its table.  C61 acceleration ignores the duration.  C73 turn heuristic overestimates.  C74 free quarter turn.  C75 from layer 9 on nothing counts as occupied; steep edges miss a cell.  C76 the last-resort path flies half a cell too high and ignores three cells' risk.  C77 overshoot, NaN at the goal, void switch.  C78 void yaw test.  C79 failed plan restarts the old path; STOP then failed plan keeps flying.
* C86 every configuration message moves the goal to the configured height.
* C82 a decision taken before a reset survives it when the landing order is renewed within the same cycle: the vehicle stays in GOTO for good.
* C89 twelve data of the nodelet are accessed without a common lock; C67 because of that a goal arriving during the hand-over is lost for good and a clicked goal can keep the old altitude; C90 a cloud or frame arriving while its thread is busy is not noticed before the next.
* C91 the previous goal of the first plan is uninitialised memory (`prev_goal_position_`); a reconfigured goal height changes the planner's goal but not the goal of the setpoints. C92 the cruise speed used before the first plan is uninitialised memory (`avoidanceOutput::cruise_velocity`): a take-off in the first 5 s may be asked for any speed.
* C93 without a usable path the node flies straight at the goal whatever was seen (first 5 s; a plan used up before the next one is handed over; freshness counts from the hand-over, use from the start of the plan).
* C94 the obstacle distance sent is the mean of a 6° cell, so an obstacle at 1 m can read as 7 m; an obstacle within the minimum sensor range makes its bin read free.
* C95 while the command loop waits for a position it holds the lock needed to hand over plans: a gap of half a second in the positions suspends the setpoints.
* C96 header of the histogram image says 255 bytes per row (60); heading converted from radians to degrees twice.
* C97 distance triangles are turned by half a bin.
* C98 the travel distance reported per goal is that since the start; `filterPathCorners` doubles a single point. Seen, not modelled (nobody calls them): `bezierFromTwoSpeeds` does not compile if used, `pathToTriplets` returns nothing.
* C99 unloading the nodelet: hangs while no positions arrive; then `std::terminate` because of the parameter thread. The safe landing planner node never ends by itself.
* C71 landing planner node: silent while waiting; termination revoked; one message can feed the planner for ever while no callback is called; lost notification; null-pointer race at start-up.
* C100 with the default settings the command loop of the global planner reads the octree and writes the table of risks without the mutex: the map can be deleted while it is read; goals, positions, obstacle cells and parameters are unprotected everywhere; the flag of the landing planner likewise.
* C101 the cell in which a search starts (predicted from the velocity) is not checked, a path blocked in a newer map is still flown when planning fails, and a goal that arrives during a failing search is marked as blocked.
* C102 objects removed from the world file stay in RViz for ever (ids are reused, nothing is deleted); a world file that cannot be read is reported as loaded; an unset GAZEBO_MODEL_PATH is undefined behaviour.
* C103 a deviation exactly at the threshold has the colour of deviation 0; the colours of the counter start over at 400; the display is one cycle ahead of what the waypoint generator gets; the path has gaps; the landing area is shown half a cell off and wrong unless the middle of the grid is cell 20.
* C104 asking about a point before the first map crashes the global planner (null `octree_`); with the risk heuristic on so does a point below 0 or at 25 cells and more; asking makes the planner blind to obstacle points in that cell until the next map.
* C14 (beyond the property listed): for a camera that looks backwards the field of view that is detected is the gap between the two points closest to the backward direction; all other extreme points lie outside it (`C14_update_behind_violated`).
* C105 the local planner draws the flown path with gaps (only the last two positions of a round), an arrow whose tip is NaN in almost every mode, in the colour of the next mode (yellow, loitering, never appears), and off-track points that are never computed.
* C106 the landing decision needs only that the cells were landable often enough among twenty clouds: after sixteen clouds of flat ground and eight empty ones the vehicle sets out to land.
* C107 the acceptance radius for the landing (0.5 m) does not depend on the patch: on a patch of 75 cm the vehicle may start to land over a cell without a single measured point.
* C107 the evidence for a patch survives a change of grid and cell sizes that keeps the number of rows: evidence collected with cells of 50 cm is used with cells of 3 m, and the vehicle lands 3 m away on ground no cloud ever showed (`C107_other_scale_witness`).
* C108 an obstacle point in a cell the map does not know is ignored (`getSingleCellRisk` looks into `occupied_` only if the octree has a node), and until the next map a point in any cell whose risk is cached is ignored.
* C110 A path of two nodes is never used up. `getSetpointFromPath` treats a path of two nodes as always valid, and `runPlanner` with an empty histogram keeps the old path: with a tree of one level (or a goal close by) the vehicle keeps being sent to the end of an old path around an obstacle that is gone, for as long as the view stays clear (C110_two_nodes_violated, C110_two_nodes_witness).
* C112 A goal straight above or below is not reached. `adaptSpeed` scales the speed with `scaleToFOV` by the azimuth of the waypoint; for a vertical direction that azimuth is atan2(0, 0), i.e. north, and the yaw setpoint stays the own yaw (no turn for less than 10 cm of horizontal way). A vehicle at rest that does not happen to see north is sent its own position for ever (C112_steep_goal_violated, C112_steep_goal_witness).
* C113 A vehicle faster than 1 m/s can go around the last pose for ever. `publishSetpoint` sends a position at the distance `speed_` ahead unless the goal is nearer than 1 m, also when the goal is nearer than `speed_`: at 2 m/s a vehicle one metre from the last pose is sent one metre behind it, and back (C113_around_goal_violated). Between poses this does not matter: they are passed at the distance of the speed.
* C114 The climb in offboard mode never ends for an obedient vehicle. `isAltitudeChange` counts the altitude of the goal as reached when the vehicle is at or above it exactly, and `getPathMsg` scales the last 10 cm by speed and distance, so that the setpoint stays below the altitude by at least the missing height minus its square: a vehicle that flies exactly to each setpoint stays below for ever and is never sent to the goal (C114_never_reached_violated). In practice noise and overshoot end the climb.
* C115 Landing and take-off. `runAltitudeChange` remembers the place of a change of altitude when the generator enters that mode and not when the kind of the change is new: a landing commanded during a climb in offboard mode sends the vehicle to where the climb began (C115_other_place_violated). And `adaptSpeed` limits the speed by the distance to the goal, not by the missing height: a take-off with a goal beside the vehicle is sent above the altitude of the goal (C115_overshoot_violated).
* C116 Smoothing does not limit the speed. `smoothWaypoint` passes the velocity of the vehicle as the wanted velocity of the filter, so that its damping vanishes for a vehicle that follows the setpoints; in a climb in offboard mode the setpoints run ahead ever faster, with the default constants more than 5 m/s after 4 s although at most 2 m/s are asked for (C116_ever_faster_violated, C116_ever_faster_witness).
* C117 The simulated wall. `sendMockData` makes a cloud of 100 points and writes the 77 of the wall; the other 23 are zeros, an obstacle at the origin that is not part of the wall (C117_origin_violated).
* C118 Asking the local planner. `printPointInfo` rounds with `%`, which rounds towards zero: for negative angles the printed edge is that of the next cell; straight above it prints 96 degrees; for the own position it converts NaN to `int` (C118_negative_violated, C118_above_violated).
* C119 Returning to launch never descends. `isAltitudeChange` sets `rtl_descend` only if the vehicle is at least 0.8 m below home and home is not higher than the vehicle: never. At home the vehicle is sent to the goal like anywhere else, with no velocity; so straight above home it may also stay where it is (C119_no_descent_violated, C112_steep_goal_violated).
* C120 Accepted configurations make the landing waypoint generator read outside its memory: with `smoothing_land_cell` 0 (the list of one height is read at index 1), or with `cell_size` 1 instead of 0.25 (13 × 13 cells are read from the centre of a 10 × 10 grid), the first grid that arrives is enough (C120_unsmoothed_witness, C120_coarse_witness).
* C121 `children_per_node_` may be configured to 0; the first run that sees an obstacle then reads the top of an empty priority queue (C121_zero_children_violated, C121_childless_witness).
* C122 the accepted ranges allow a minimum overestimation of 1 (planning hangs while the vehicle is in its goal: C122_hover_hangs_violated) and maximum altitudes of 26 to 50 m (the table of the risk heuristic has 25 entries: C122_outside_table_violated).
* C123 in single precision wrapAngleToPlusMinus180(179.99998f) is -180.00002, outside the range its callers rely on; the clamping in polarToHistogramIndex maps that direction to the cell on the other side of the cut (C123_leaves_range_witness, C123_across_the_cut_witness). Nothing of the proofs in exact arithmetic shows this.
* C124 with a goal of NaN height runDirect does not normalise the direction (Eigen leaves a vector with a NaN norm as it is), so that at 3 m/s three metres before the goal the setpoint is 5.1 m behind it; with smoothing (the default) the NaN of the height erases the way in all three directions and a hovering vehicle never sets out; in offboard mode the comparison with the goal height is never true and the vehicle is sent down for ever (C124_smoothing_stands_violated, C124_direct_beyond_witness, C124_offboard_descends_violated).
* C125 with a goal of NaN height and an obstacle in sight every cost is NaN; the plan is then a single step (2 m by default) 87 degrees downwards, whatever the obstacles and wherever the goal is (C125_flight_down_violated).

## 7. Wrong programs

`seeded/LOG.jsonl` records edits to the model that correspond to realistic bugs, the
theorems that then fail, and the theorems tightened because they did not.
