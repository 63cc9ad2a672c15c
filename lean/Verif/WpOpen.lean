import Verif.WpGen

/-!
# The waypoint generator with a goal whose height is not a number

The goals the autopilot sends (`fcuInputGoalCallback`, local_planner_nodelet.cpp:339-361) are its setpoints: when it controls the
vertical velocity, as in landing, their height is NaN.  The model `WpGen` is for goals with three numbers; here is one cycle of
waypoint_generator.cpp once more for goals with an open height.  Every comparison with NaN is false, every sum with it is NaN,
`std::min(a, NaN)` is `a`, and Eigen's `normalized()` returns a vector with a NaN entry as it is (its squared norm is not
positive).  What depends on the goal only through its horizontal part is taken from `WpGen`.
-/

namespace Avoidance

/-- The members of the waypoint generator, waypoint_generator.h:20-80, when the height of the goal is NaN: everything else stays
a number, except the heights of the three waypoints (`none` is NaN), which take the place of those in `w`; the height of `w.goal`
is not used. -/
structure OpenState where
  w : WgState
  goto_z : Option ℝ
  adapted_z : Option ℝ
  smoothed_z : Option ℝ

noncomputable section
open Classical

/-- `isAltitudeChange`, waypoint_generator.cpp:418-453: both comparisons of lines 422-431 are false, so that `rtl_descend` is set,
and so is that of line 442. -/
def isAltitudeChangeOpen (s : WgState) : Bool × WgState :=
  let rtl_descend := true
  let rtl_climb := false
  let offboard_goal_altitude_not_reached : Bool := s.nav = .offboard ∧ s.reach_altitude_offboard = false
  let auto_takeoff : Bool := s.nav = .auto_takeoff ∨ (s.nav = .mission ∧ s.is_takeoff = true) ∨
    (s.nav = .auto_rtl ∧ rtl_climb = true)
  let auto_land : Bool := s.nav = .auto_land ∨ (s.nav = .mission ∧ s.is_land = true) ∨
    (s.nav = .auto_rtl ∧ rtl_descend = true)
  let s := { s with auto_land := auto_land }
  if offboard_goal_altitude_not_reached || auto_takeoff || auto_land then (true, s) else (false, s)

/-- `adaptSpeed`, waypoint_generator.cpp:341-388: the distance to the goal is NaN, so the `else` of line 366 is taken and line 377
leaves the speed as it is.  With an open waypoint the elevation is NaN, `wrapPolar` wraps only the azimuth, and the waypoint is
not scaled to one metre (line 381). -/
def adaptSpeedOpen (st : PlannerState) (dt : ℝ) (s : OpenState) : OpenState :=
  let alpha := dt / (9 / 10 + dt)
  let last_speed := s.w.speed
  let cruise := s.w.planner.cruise_velocity.getD 2
  let scale : ℝ :=
    if st ≠ .ALTITUDE_CHANGE then
      match s.goto_z with
      | some z =>
        let p := cartesianToPolarFCU ⟨s.w.out_goto.x, s.w.out_goto.y, z⟩ s.w.position
        (scaleToFOV s.w.fovs (wrapPolar ⟨p.e - s.w.curr_pitch, p.z - radToDeg * s.w.curr_yaw, p.r⟩)).getD 0
      | none =>
        let azimuth := wrap180 (-(cartesianToPolarHistogram ⟨s.w.out_goto.x, s.w.out_goto.y, 0⟩ s.w.position).z + 90)
        (scaleToFOV s.w.fovs ⟨0, wrap180 (azimuth - radToDeg * s.w.curr_yaw), 0⟩).getD 0
    else 1
  let speed := alpha * (cruise * scale) + (1 - alpha) * last_speed
  let w := { s.w with speed := speed, heading_at_goal := none }
  match s.goto_z with
  | some z =>
    let pose_to_wp := (⟨w.out_goto.x, w.out_goto.y, z⟩ : V3 ℝ).minus w.position
    let pose_to_wp := if pose_to_wp.norm > 1 / 10 then pose_to_wp.normalized else pose_to_wp
    let a := w.position.plus (V3.smul speed pose_to_wp)
    { s with w := { w with out_adapted := a }, adapted_z := some a.z }
  | none =>
    { s with
      w := { w with out_adapted := ⟨w.position.x + speed * (w.out_goto.x - w.position.x), w.position.y + speed * (w.out_goto.y - w.position.y), 0⟩ }
      adapted_z := none }

/-- `smoothWaypoint`, waypoint_generator.cpp:270-306: the comparison of line 287 is false; a difference of locations with a NaN is
replaced by zero (line 290). -/
def smoothWaypointOpen (dt : ℝ) (s : OpenState) : OpenState :=
  if s.w.smoothing_speed_xy < 1 / 100 ∨ s.w.smoothing_speed_z < 1 / 100 then
    { s with w := { s.w with out_smoothed := s.w.out_adapted }, smoothed_z := s.adapted_z }
  else
    match s.w.smoothed_loc with
    | none => s
    | some loc =>
      let Pxy := s.w.smoothing_speed_xy
      let Pz := s.w.smoothing_speed_z
      let Dxy := 2 * Real.sqrt Pxy
      let Dz := 2 * Real.sqrt Pz
      let dl : V3 ℝ := match s.adapted_z with
        | some z => (⟨s.w.out_adapted.x, s.w.out_adapted.y, z⟩ : V3 ℝ).minus loc
        | none => ⟨0, 0, 0⟩
      let dv := s.w.velocity.minus s.w.smoothed_vel
      let a : V3 ℝ := ⟨dl.x * Pxy + dv.x * Dxy, dl.y * Pxy + dv.y * Dxy, dl.z * Pz + dv.z * Dz⟩
      let vel := s.w.smoothed_vel.plus (V3.smul dt a)
      let loc := loc.plus (V3.smul dt vel)
      { s with w := { s.w with smoothed_vel := vel, smoothed_loc := some loc, out_smoothed := loc }, smoothed_z := some loc.z }

/-- `getPathMsg`, waypoint_generator.cpp:391-410 (`nextSmoothYaw` reads only the horizontal part of the waypoint). -/
def getPathMsgOpen (st : PlannerState) (s : OpenState) : OpenState :=
  let s := { s with w := { s.w with out_adapted := s.w.out_goto }, adapted_z := s.goto_z }
  let dt := pathDt s.w
  let s := { s with w := nextSmoothYaw st dt s.w }
  let s := if s.w.auto_land then s else smoothWaypointOpen dt (adaptSpeedOpen st dt s)
  { s with w := { s.w with out_position := ⟨some s.w.out_smoothed.x, some s.w.out_smoothed.y, s.smoothed_z⟩ } }

/-- `runTryPath`, waypoint_generator.cpp:82-104. -/
def runTryPathOpen (s : OpenState) : Transition × OpenState :=
  let r := wgSetpoint s.w.planner s.w.current_time
  let goto_position := match r.2 with
    | some setpoint => s.w.position.plus (setpoint.minus s.w.position).normalized
    | none => s.w.position
  let s := getPathMsgOpen .TRY_PATH { s with w := { s.w with out_goto := goto_position }, goto_z := some goto_position.z }
  if s.w.loiter then (.NEXT3, s)
  else
    let a := isAltitudeChangeOpen s.w
    let s := { s with w := a.2 }
    if a.1 then (.NEXT1, s) else if r.1 then (.REPEAT, s) else (.NEXT2, s)

/-- Lines 111-151 of `runAltitudeChange`, waypoint_generator.cpp (line 121, `position_.z() <= goal_.z()`, is false). -/
def altTargetOpen (s : OpenState) : OpenState :=
  if s.w.nav = .offboard then
    let z := if s.w.airborne then s.w.position.z - 1 else s.w.position.z
    { s with w := { s.w with goal := ⟨s.w.position.x, s.w.position.y, 0⟩, out_goto := ⟨s.w.position.x, s.w.position.y, z⟩ }, goto_z := some z }
  else if s.w.velocity.normXY > 1 / 2 then
    { s with
      w := { s.w with
        out_linear_velocity := ⟨some 0, some 0, none⟩
        out_position := ⟨none, none, some s.w.position.z⟩
        out_goto := s.w.position
        out_adapted := s.w.position
        out_smoothed := s.w.position
        change_altitude_pos := some s.w.position }
      goto_z := some s.w.position.z
      adapted_z := some s.w.position.z
      smoothed_z := some s.w.position.z }
  else
    let c := s.w.change_altitude_pos.getD s.w.position
    let w := { s.w with out_goto := ⟨c.x, c.y, 0⟩, out_linear_velocity := s.w.desired_vel }
    if s.w.auto_land then
      { w := { w with out_adapted := ⟨c.x, c.y, 0⟩, out_smoothed := ⟨c.x, c.y, 0⟩ }, goto_z := none, adapted_z := none, smoothed_z := none }
    else { s with w := w, goto_z := none }

/-- `runAltitudeChange`, waypoint_generator.cpp:106-162. -/
def runAltitudeChangeOpen (s : OpenState) : Transition × OpenState :=
  let s := getPathMsgOpen .ALTITUDE_CHANGE (altTargetOpen { s with w := altEnter s.w })
  if s.w.loiter then (.NEXT2, s)
  else
    let a := isAltitudeChangeOpen s.w
    let s := { s with w := a.2 }
    if a.1 then (.REPEAT, s) else (.NEXT1, s)

/-- `runLoiter`, waypoint_generator.cpp:163-177. -/
def runLoiterOpen (s : OpenState) : Transition × OpenState :=
  let hover := if s.w.state_changed then s.w.position else s.w.hover_position.getD s.w.position
  let s := getPathMsgOpen .LOITER { s with w := { s.w with hover_position := some hover, out_goto := hover }, goto_z := some hover.z }
  if s.w.loiter then (.REPEAT, s) else (.NEXT1, s)

/-- `runDirect`, waypoint_generator.cpp:179-199 (line 180: a vector with a NaN is not normalised). -/
def runDirectOpen (s : OpenState) : Transition × OpenState :=
  let dir_x := s.w.goal.x - s.w.position.x
  let dir_y := s.w.goal.y - s.w.position.y
  let s := getPathMsgOpen .DIRECT
    { s with w := { s.w with out_goto := ⟨s.w.position.x + dir_x, s.w.position.y + dir_y, 0⟩ }, goto_z := none }
  if (wgSetpoint s.w.planner s.w.current_time).1 then (.NEXT1, s)
  else
    let a := isAltitudeChangeOpen s.w
    let s := { s with w := a.2 }
    if a.1 then (.NEXT2, s) else if s.w.loiter then (.NEXT3, s) else (.REPEAT, s)

/-- `runCurrentState`, waypoint_generator.cpp:54-80. -/
def openRun (st : PlannerState) (s : OpenState) : Transition × OpenState :=
  let r := match st with
    | .TRY_PATH => runTryPathOpen s
    | .ALTITUDE_CHANGE => runAltitudeChangeOpen s
    | .LOITER => runLoiterOpen s
    | .DIRECT => runDirectOpen s
  (r.1, { r.2 with w := { r.2.w with state_changed := decide (r.1 ≠ .REPEAT) } })

/-- The state machine, waypoint_generator.cpp:12, 35-80, with the table of `WpGen`. -/
def openMachine : Machine PlannerState OpenState := ⟨openRun, usmTable .LOITER wgTable⟩

/-- One call of `calculateWaypoints` of the node with an open goal: `updateState` (waypoint_generator.cpp:226-261), then
`getWaypoints` (lines 201-216) at time `now`; the height of `i.goal` is not used.  Before the cycle the planner may have delivered
`pl` (`setPlannerInfo`, lines 455-458). -/
def openCycle (x : PlannerState × OpenState) (pl : PlannerInfo) (i : WgIn) (now : ℝ) : PlannerState × OpenState :=
  let w := wgUpdate { x.2.w with planner := pl } { i with goal := ⟨i.goal.x, i.goal.y, 0⟩ }
  openMachine.iterateOnce x.1 { x.2 with w := { w with out_linear_velocity := V3.nan, last_time := w.current_time, current_time := now } }

/-- Any number of rounds: in each the planner's newest plan, the inputs and the time (local_planner_nodelet.cpp:283-310). -/
def openRunAll (x : PlannerState × OpenState) : List (PlannerInfo × WgIn × ℝ) → PlannerState × OpenState
  | [] => x
  | (pl, i, now) :: rest => openRunAll (openCycle x pl i now) rest

end

end Avoidance
