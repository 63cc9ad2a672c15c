import Verif.RunPlanner
import Verif.Nodelet

/-!
# The local planner nodelet end to end (local_planner/src/nodes/local_planner_nodelet.cpp)

Model only: the node with its planner, its waypoint generator and its watchdog, driven by everything that can
reach it: vehicle data, goals, parameters, point clouds of all cameras, the timer of the command loop.

`none` is an event that cannot happen in the state (a mutex is held, a loop is not at that place) or undefined
behaviour in the planner.  Simplifications: `updatePlannerInfo` takes its snapshot of the vehicle data in one step
(the data races are treated in `NodeletRaces` and `GoalRace`); positions, velocities, goals and autopilot
parameters are numbers; drawing is left out.
-/

namespace Avoidance

/-- What one message to the autopilot is made of (`calculateWaypoints`, 283-317), and the two intermediate
waypoints, which are published for visualisation (lines 300-304). -/
structure SentMsg where
  time : ℝ
  position : V3 (Option ℝ)
  yaw : ℝ
  velocity : V3 (Option ℝ)
  goto : V3 ℝ
  adapted : V3 ℝ

/-- Values of members nobody initialises: `newest_position_`, `velocity_`, `newest_orientation_`,
`prev_goal_position_`, `desired_velocity_` (local_planner_nodelet.h:215-225), `avoidanceOutput::cruise_velocity`
(avoidance_output.h:13) and `waypointResult` (waypoint_generator.h:20-29). -/
structure Uninit where
  position : V3 ℝ
  velocity : V3 ℝ
  orientation : Quat ℝ
  prev_goal : V3 ℝ
  desired_velocity : V3 (Option ℝ)
  cruise_velocity : Option ℝ
  goto : V3 ℝ
  adapted : V3 ℝ
  smoothed : V3 ℝ
  out_position : V3 (Option ℝ)
  out_velocity : V3 (Option ℝ)

/-- `readParams`, 119-131 (goal, whether the goal topic is accepted), the time of the start (line 105) and the
autopilot parameters known then. -/
structure Launch where
  goal : V3 ℝ
  accept_topic : Bool
  start : ℝ
  px4 : LpPx4

/-- `class LocalPlannerNodelet`, local_planner_nodelet.h:80-260, with the objects it owns.  `planning`: the worker is
between taking its snapshot and handing over the result (it holds `running_mutex_`); `cmd`: the command loop is
running since that time (it holds `waypoints_mutex_`).  `calls` records the calls made to the planner. -/
structure NodeSt where
  planner : LPlanner
  calls : List LpEvent
  gen : PlannerState × WgState
  position : V3 ℝ
  velocity : V3 ℝ
  orientation : Quat ℝ
  position_received : Bool
  armed : Bool
  nav : NavState
  goals : GoalState ℝ
  px4 : LpPx4
  mission : Flt ℝ
  status : MavState
  last_wp_time : ℝ
  start_time : ℝ
  timeout : ℝ
  planning : Bool
  cmd : Option ℝ
  sent : List SentMsg
  scans : List (List (Option ℝ))

/-- Everything that can happen. -/
inductive NodeEvent where
  | pose (p : V3 ℝ) (q : Quat ℝ)
  | velocity (v : V3 ℝ)
  | state (armed : Bool) (mode : String)
  | clicked (p : V3 ℝ)
  | topic (markers : List (V3 ℝ))
  | fcu (m : TrajectoryMsg ℝ)
  | px4 (p : LpPx4)
  | mission (v : Flt ℝ)
  | config (c : LpConfig) (smoothing_xy smoothing_z timeout : ℝ)
  /-- the worker takes its snapshot, with a point cloud and a field of view per camera, and plans -/
  | planStart (frame : List (List (V3 (Flt ℝ)) × FOV ℝ)) (now : ℝ)
  /-- the worker hands over the plan -/
  | planEnd (now : ℝ)
  /-- the timer starts the command loop -/
  | timer (now : ℝ)
  /-- a turn of the loop that waits for a position -/
  | poll (now : ℝ)
  /-- the rest of the command loop -/
  | send (now : ℝ)

noncomputable section

/-- A vector whose entries are numbers. -/
def V3.val (v : V3 (Option ℝ)) : V3 ℝ := ⟨v.x.getD 0, v.y.getD 0, v.z.getD 0⟩

/-- A new `WaypointGenerator`, waypoint_generator.h:33-80; members that start as NaN are set by `updateState`
before they are read. -/
def newGenerator (u : Uninit) : WgState where
  planner := ⟨[], 0, u.cruise_velocity⟩
  smoothing_speed_xy := 10
  smoothing_speed_z := 3
  fovs := []
  position := u.position
  velocity := u.velocity
  goal := u.prev_goal
  curr_yaw := 0
  curr_pitch := 0
  nav := .none
  is_land := false
  is_takeoff := false
  desired_vel := V3.nan
  loiter := false
  airborne := false
  last_time := 99999
  current_time := 99999
  smoothed_loc := none
  smoothed_vel := ⟨0, 0, 0⟩
  hover_position := none
  change_altitude_pos := none
  yaw_reach_height := none
  reach_altitude_offboard := false
  auto_land := false
  state_changed := false
  setpoint_yaw := 0
  setpoint_yaw_velocity := 0
  heading_at_goal := none
  speed := 0
  out_goto := u.goto
  out_adapted := u.adapted
  out_smoothed := u.smoothed
  out_position := u.out_position
  out_linear_velocity := u.out_velocity

/-- The goal members after `readParams`, 119-131. -/
def goalInit (u : Uninit) (l : Launch) : GoalState ℝ where
  goal := l.goal.some'
  prev_goal := u.prev_goal.some'
  new_goal := true
  desired_velocity := u.desired_velocity
  is_land := false
  is_takeoff := false
  mission_item := ⟨0, 0, 0⟩
  accept_topic := l.accept_topic
  planner_goal := (⟨0, 0, 0⟩ : V3 ℝ).some'
  planner_prev := (⟨0, 0, 0⟩ : V3 ℝ).some'

/-- After `InitializeNodelet`, 62-106; `last_wp_time_` is `ros::Time()`; `timeout_termination_` is 20 s until the
first configuration (local_planner.h:97). -/
def nodeInit (u : Uninit) (l : Launch) : NodeSt where
  planner := lpInit.applyGoal
  calls := [.applyGoal]
  gen := (.LOITER, newGenerator u)
  position := u.position
  velocity := u.velocity
  orientation := u.orientation
  position_received := false
  armed := false
  nav := .none
  goals := goalInit u l
  px4 := l.px4
  mission := .nan
  status := .BOOT
  last_wp_time := 0
  start_time := l.start
  timeout := 20
  planning := false
  cmd := none
  sent := []
  scans := []

/-- `WaypointGenerator::setFOV`, waypoint_generator.cpp:218-224. -/
def wgSetFOV (fovs : List (FOV ℝ)) (i : ℕ) (f : FOV ℝ) : List (FOV ℝ) :=
  if i < fovs.length then fovs.set i f else fovs ++ List.replicate (i - fovs.length) ⟨0, 0, 0, 0⟩ ++ [f]

/-- The calls `updatePlannerInfo` makes to the planner, 162-197, in its order. -/
def updateCalls (s : NodeSt) (frame : List (List (V3 (Flt ℝ)) × FOV ℝ)) : List LpEvent :=
  [.clouds (frame.map (·.1))] ++ frame.zipIdx.map (fun x => .fov x.2 x.1.2) ++ [.state s.position s.velocity s.orientation] ++
  (if s.goals.new_goal then [.goal s.goals.goal.val, .prevGoal s.goals.prev_goal.val] else []) ++ [.px4 s.px4, .mission s.mission]

/-- `publishLaserScan`, 442-453, with the distances and the parameter of the planner. -/
def scanOf (p : LPlanner) : List (List (Option ℝ)) :=
  if p.px4.cp_dist.lt (.fin 0) then [] else p.distances.toList

/-- `getAvoidanceOutput` as the generator stores it (`setPlannerInfo`, waypoint_generator.cpp:455-458). -/
def infoOf (p : LPlanner) : PlannerInfo := ⟨p.output.2.2, p.output.2.1, some p.output.1⟩

/-- What `calculateWaypoints`, 283-288, passes to the generator. -/
def inputOf (s : NodeSt) (hover : Bool) : WgIn where
  position := s.position
  velocity := s.velocity
  goal := s.goals.goal.val
  yaw := getYawFromQuaternion s.orientation * degToRad
  pitch := getPitchFromQuaternion s.orientation
  nav := s.nav
  is_land := s.goals.is_land
  is_takeoff := s.goals.is_takeoff
  desired_vel := s.goals.desired_velocity
  stay := hover
  airborne := s.armed && decide (s.nav ≠ .none)

/-- The message of a generator cycle, 289-317. -/
def messageOf (g : WgState) (now : ℝ) : SentMsg :=
  ⟨now, g.out_position, g.setpoint_yaw, g.out_linear_velocity, g.out_goto, g.out_adapted⟩

/-- `cmdLoopCallback` after its waiting loop, 263-277. -/
def sendStep (s : NodeSt) (now : ℝ) : NodeSt :=
  let w := checkFailsafe (now - s.last_wp_time) (now - s.start_time) ⟨s.status, false⟩
  let s := { s with status := w.status, cmd := none, position_received := false }
  if w.status = .ACTIVE then
    let g := wgCycle s.gen (inputOf s w.hover) now
    { s with gen := g, sent := s.sent ++ [messageOf g.2 now] }
  else s

/-- One event. -/
def nodeStep (Q : PriorityQueue (Candidate ℝ) Candidate.lt) (s : NodeSt) : NodeEvent → Option NodeSt
  /- `positionCallback`, 199-205 -/
  | .pose p q => some { s with position := p, orientation := q, position_received := true }
  /- `velocityCallback`, 207-209 -/
  | .velocity v => some { s with velocity := v }
  /- `stateCallback`, 211-231 -/
  | .state armed mode => some { s with armed := armed, nav := navStateOf mode }
  /- `clickedGoalCallback`, 322-329 -/
  | .clicked p => some { s with goals := clickedGoal { s.goals with planner_goal := s.planner.goal.some' } p }
  /- `updateGoalCallback`, 331-337 -/
  | .topic ms => some { s with goals := updateGoal s.goals ms }
  /- `fcuInputGoalCallback`, 339-361 -/
  | .fcu m => some { s with goals := fcuInputGoal s.goals m }
  /- `AvoidanceNode::px4ParamsCallback` and `missionCallback`, avoidance_node.cpp:85-190 -/
  | .px4 p => some { s with px4 := p }
  | .mission v => some { s with mission := v }
  /- `dynamicReconfigureCallback`, 435-440: waits for `running_mutex_` -/
  | .config c sxy sz t =>
    if s.planning then none
    else some { s with planner := s.planner.configure c, calls := s.calls ++ [.config c], timeout := t,
                       gen := (s.gen.1, { s.gen.2 with smoothing_speed_xy := sxy, smoothing_speed_z := sz }) }
  /- `threadFunction`, 455-474: only with a cloud of every camera (C40), at least one -/
  | .planStart frame now =>
    if s.planning = true ∨ frame = [] then none
    else (loopM (lpStep Q) s.planner (updateCalls s frame ++ [.run now])).map fun pl =>
      { s with planner := pl, calls := s.calls ++ (updateCalls s frame ++ [.run now]), planning := true,
               goals := { s.goals with new_goal := false }, scans := s.scans ++ scanOf pl,
               gen := (s.gen.1, { s.gen.2 with fovs := frame.zipIdx.foldl (fun l x => wgSetFOV l x.2 x.1.2) s.gen.2.fovs }) }
  /- `threadFunction`, 476-479: waits for `waypoints_mutex_` -/
  | .planEnd now =>
    if s.planning = true ∧ s.cmd = none then
      some { s with planning := false, last_wp_time := now, gen := (s.gen.1, { s.gen.2 with planner := infoOf s.planner }) }
    else none
  /- `cmdLoopCallback`, 233-238 -/
  | .timer now => if s.cmd = none then some { s with cmd := some now } else none
  /- 240-261 -/
  | .poll now => s.cmd.bind fun t0 =>
    if s.position_received then none
    else some (if now - t0 > s.timeout then { s with status := .FLIGHT_TERMINATION } else s)
  /- 263-277 -/
  | .send now => if s.cmd.isSome = true ∧ s.position_received = true then some (sendStep s now) else none

end
end Avoidance
