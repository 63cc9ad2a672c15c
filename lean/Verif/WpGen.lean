import Verif.Usm
import Verif.LocalPlanner
import Verif.Angles

/-!
# The local planner's `WaypointGenerator`
(local_planner/src/nodes/waypoint_generator.cpp, local_planner/include/local_planner/waypoint_generator.h)

Model only, over the real numbers.  Position, velocity, goal and attitude are finite; quantities that
are NaN until first written are `Option`s.  `trigger_reset_` is never set anywhere, so lines 55-58 are
left out.  `getSystemTime()` is read once per cycle (the code reads it twice, microseconds apart).
-/

namespace Avoidance

/-- `enum class NavigationState`, avoidance/include/avoidance/common.h:33-42. -/
inductive NavState where
  | mission | auto_takeoff | auto_land | auto_rtl | auto_rtgs | offboard | auto_loiter | none
deriving DecidableEq, Repr

/-- `enum class PlannerState`, waypoint_generator.h:17. -/
inductive PlannerState where
  | TRY_PATH | ALTITUDE_CHANGE | LOITER | DIRECT
deriving DecidableEq, Repr

/-- Arguments of `updateState`, waypoint_generator.cpp:226-230. -/
structure WgIn where
  position : V3 ℝ
  velocity : V3 ℝ
  goal : V3 ℝ
  yaw : ℝ
  pitch : ℝ
  nav : NavState
  is_land : Bool
  is_takeoff : Bool
  desired_vel : V3 (Option ℝ)
  stay : Bool
  airborne : Bool

/-- `avoidanceOutput` as used here (avoidance_output.h); a cruise velocity `none` is not finite. -/
structure PlannerInfo where
  path : List (V3 ℝ)
  last_path_time : ℝ
  cruise_velocity : Option ℝ

/-- Members of `WaypointGenerator`, waypoint_generator.h:33-80, and of `waypointResult` (lines 20-29)
prefixed by `out_`. -/
structure WgState where
  planner : PlannerInfo
  smoothing_speed_xy : ℝ
  smoothing_speed_z : ℝ
  fovs : List (FOV ℝ)
  position : V3 ℝ
  velocity : V3 ℝ
  goal : V3 ℝ
  curr_yaw : ℝ
  curr_pitch : ℝ
  nav : NavState
  is_land : Bool
  is_takeoff : Bool
  desired_vel : V3 (Option ℝ)
  loiter : Bool
  airborne : Bool
  last_time : ℝ
  current_time : ℝ
  smoothed_loc : Option (V3 ℝ)
  smoothed_vel : V3 ℝ
  hover_position : Option (V3 ℝ)
  change_altitude_pos : Option (V3 ℝ)
  yaw_reach_height : Option ℝ
  reach_altitude_offboard : Bool
  auto_land : Bool
  state_changed : Bool
  setpoint_yaw : ℝ
  setpoint_yaw_velocity : ℝ
  heading_at_goal : Option ℝ
  speed : ℝ
  out_goto : V3 ℝ
  out_adapted : V3 ℝ
  out_smoothed : V3 ℝ
  out_position : V3 (Option ℝ)
  out_linear_velocity : V3 (Option ℝ)

/-- A vector without NaN entries. -/
def V3.fin (v : V3 ℝ) : V3 (Option ℝ) := ⟨some v.x, some v.y, some v.z⟩
/-- `Eigen::Vector3f(NAN, NAN, NAN)`. -/
def V3.nan : V3 (Option ℝ) := ⟨none, none, none⟩

noncomputable section
open Classical

/-- `getSetpointFromPath` as called at lines 84-85 and 189-190; with a cruise velocity that is not
finite all its comparisons are false.  (That it never reads outside the path is `C31_defined`.) -/
def wgSetpoint (p : PlannerInfo) (now : ℝ) : Bool × Option (V3 ℝ) :=
  match p.cruise_velocity with
  | some v => (getSetpointFromPath p.path (now - p.last_path_time) v).getD (false, none)
  | none =>
    if p.path.length < 2 then (false, none)
    else if p.path.length = 2 then (true, p.path[0]?)
    else (false, none)

/-- `isAltitudeChange`, waypoint_generator.cpp:418-453. -/
def isAltitudeChange (s : WgState) : Bool × WgState :=
  let rtl : Bool × Bool :=
    if s.position.z > s.goal.z - 4 / 5 then (false, false)
    else if s.goal.z > s.position.z then (false, true) else (true, false)
  let rtl_descend := rtl.1
  let rtl_climb := rtl.2
  let offboard_goal_altitude_not_reached : Bool := s.nav = .offboard ∧ s.reach_altitude_offboard = false
  let auto_takeoff : Bool := s.nav = .auto_takeoff ∨ (s.nav = .mission ∧ s.is_takeoff = true) ∨
    (s.nav = .auto_rtl ∧ rtl_climb = true)
  let auto_land : Bool := s.nav = .auto_land ∨ (s.nav = .mission ∧ s.is_land = true) ∨
    (s.nav = .auto_rtl ∧ rtl_descend = true)
  let s := { s with auto_land := auto_land }
  if offboard_goal_altitude_not_reached || auto_takeoff || auto_land then
    if s.nav = .offboard ∧ s.position.z ≥ s.goal.z then
      (false, { s with reach_altitude_offboard := true })
    else (true, s)
  else (false, s)

/-- `nextSmoothYaw`, waypoint_generator.cpp:308-339. -/
def nextSmoothYaw (st : PlannerState) (dt : ℝ) (s : WgState) : WgState :=
  let desired : Option ℝ :=
    if st = .ALTITUDE_CHANGE then s.yaw_reach_height
    else some (if (s.position.minus s.out_goto).normXY > 1 / 10 then nextYaw s.position s.out_goto
      else s.curr_yaw)
  if s.smoothing_speed_xy ≤ 1 / 100 then { s with setpoint_yaw := desired.getD 0 }
  else
    let P := s.smoothing_speed_xy
    let D := 2 * Real.sqrt P
    let yaw_diff := wrapPi (match desired with | some d => d - s.setpoint_yaw | none => 0)
    let v := s.setpoint_yaw_velocity + (yaw_diff * P + (0 - s.setpoint_yaw_velocity) * D) * dt
    { s with setpoint_yaw_velocity := v, setpoint_yaw := wrapPi (s.setpoint_yaw + v * dt) }

/-- `adaptSpeed`, waypoint_generator.cpp:341-388. -/
def adaptSpeed (st : PlannerState) (dt : ℝ) (s : WgState) : WgState :=
  let alpha := dt / (9 / 10 + dt)
  let last_speed := s.speed
  let cruise := s.planner.cruise_velocity.getD 2
  let goal_dist := (s.goal.minus s.position).norm
  let s : WgState :=
    if goal_dist < 1 then
      let heading := s.heading_at_goal.getD s.curr_yaw
      { s with out_goto := s.goal, speed := goal_dist, heading_at_goal := some heading, setpoint_yaw := heading }
    else
      let scale : ℝ :=
        if st ≠ .ALTITUDE_CHANGE then
          let p := cartesianToPolarFCU s.out_goto s.position
          (scaleToFOV s.fovs (wrapPolar ⟨p.e - s.curr_pitch, p.z - radToDeg * s.curr_yaw, p.r⟩)).getD 0
        else 1
      { s with speed := cruise * scale, heading_at_goal := none }
  let speed := min (alpha * s.speed + (1 - alpha) * last_speed) goal_dist
  let pose_to_wp := s.out_goto.minus s.position
  let pose_to_wp := if pose_to_wp.norm > 1 / 10 then pose_to_wp.normalized else pose_to_wp
  { s with speed := speed, out_adapted := s.position.plus (V3.smul speed pose_to_wp) }

/-- `smoothWaypoint`, waypoint_generator.cpp:270-306.  `smoothed_loc = none` (not finite) does not
occur after `updateState`. -/
def smoothWaypoint (dt : ℝ) (s : WgState) : WgState :=
  if s.smoothing_speed_xy < 1 / 100 ∨ s.smoothing_speed_z < 1 / 100 then
    { s with out_smoothed := s.out_adapted }
  else
    match s.smoothed_loc with
    | none => s
    | some loc =>
      let Pxy := s.smoothing_speed_xy
      let Pz := s.smoothing_speed_z
      let Dxy := 2 * Real.sqrt Pxy
      let Dz := 2 * Real.sqrt Pz
      let desired_velocity : V3 ℝ :=
        if (s.out_adapted.minus s.goal).norm < 1 / 10 then ⟨0, 0, 0⟩ else s.velocity
      let dl := s.out_adapted.minus loc
      let dv := desired_velocity.minus s.smoothed_vel
      let a : V3 ℝ := ⟨dl.x * Pxy + dv.x * Dxy, dl.y * Pxy + dv.y * Dxy, dl.z * Pz + dv.z * Dz⟩
      let vel := s.smoothed_vel.plus (V3.smul dt a)
      let loc := loc.plus (V3.smul dt vel)
      { s with smoothed_vel := vel, smoothed_loc := some loc, out_smoothed := loc }

/-- `dt` of `getPathMsg`, waypoint_generator.cpp:394-395. -/
def pathDt (s : WgState) : ℝ :=
  if s.current_time - s.last_time > 0 then s.current_time - s.last_time else 1 / 10000

/-- `getPathMsg`, waypoint_generator.cpp:391-410; the orientation is that of `setpoint_yaw`. -/
def getPathMsg (st : PlannerState) (s : WgState) : WgState :=
  let s := { s with out_adapted := s.out_goto }
  let dt := pathDt s
  let s := nextSmoothYaw st dt s
  let s := if s.auto_land then s else smoothWaypoint dt (adaptSpeed st dt s)
  { s with out_position := s.out_smoothed.fin }

/-- `runTryPath`, waypoint_generator.cpp:82-104. -/
def runTryPath (s : WgState) : Transition × WgState :=
  let r := wgSetpoint s.planner s.current_time
  -- a NaN setpoint, or one that was not written, ends up as the own position
  let goto_position := match r.2 with
    | some setpoint => s.position.plus (setpoint.minus s.position).normalized
    | none => s.position
  let s := getPathMsg .TRY_PATH { s with out_goto := goto_position }
  if s.loiter then (.NEXT3, s)
  else
    let a := isAltitudeChange s
    if a.1 then (.NEXT1, a.2) else if r.1 then (.REPEAT, a.2) else (.NEXT2, a.2)

/-- Lines 106-110 of `runAltitudeChange`. -/
def altEnter (s : WgState) : WgState :=
  if s.state_changed then
    { s with yaw_reach_height := some s.curr_yaw, change_altitude_pos := some s.position }
  else s

/-- Lines 111-151 of `runAltitudeChange`. -/
def altTarget (s : WgState) : WgState :=
  if s.nav = .offboard then
    let goal : V3 ℝ := ⟨s.position.x, s.position.y, s.goal.z⟩
    let z := if s.airborne then (if s.position.z ≤ goal.z then s.position.z + 1 else s.position.z - 1)
      else s.position.z
    { s with goal := goal, out_goto := ⟨s.position.x, s.position.y, z⟩ }
  else if s.velocity.normXY > 1 / 2 then
    { s with
      out_linear_velocity := ⟨some 0, some 0, none⟩
      out_position := ⟨none, none, some s.position.z⟩
      out_goto := s.position
      out_adapted := s.position
      out_smoothed := s.position
      change_altitude_pos := some s.position }
  else
    let c := s.change_altitude_pos.getD s.position
    let goto_position : V3 ℝ := ⟨c.x, c.y, s.goal.z⟩
    if s.auto_land then
      { s with out_goto := goto_position, out_adapted := goto_position, out_smoothed := goto_position
               out_linear_velocity := s.desired_vel }
    else { s with out_goto := goto_position, out_linear_velocity := s.desired_vel }

/-- `runAltitudeChange`, waypoint_generator.cpp:106-162. -/
def runAltitudeChange (s : WgState) : Transition × WgState :=
  let s := getPathMsg .ALTITUDE_CHANGE (altTarget (altEnter s))
  if s.loiter then (.NEXT2, s)
  else
    let a := isAltitudeChange s
    if a.1 then (.REPEAT, a.2) else (.NEXT1, a.2)

/-- `runLoiter`, waypoint_generator.cpp:163-177. -/
def runLoiter (s : WgState) : Transition × WgState :=
  let hover := if s.state_changed then s.position else s.hover_position.getD s.position
  let s := getPathMsg .LOITER { s with hover_position := some hover, out_goto := hover }
  if s.loiter then (.REPEAT, s) else (.NEXT1, s)

/-- `runDirect`, waypoint_generator.cpp:179-199. -/
def runDirect (s : WgState) : Transition × WgState :=
  let dir := (s.goal.minus s.position).normalized
  let s := getPathMsg .DIRECT { s with out_goto := s.position.plus dir }
  if (wgSetpoint s.planner s.current_time).1 then (.NEXT1, s)
  else
    let a := isAltitudeChange s
    if a.1 then (.NEXT2, a.2) else if a.2.loiter then (.NEXT3, a.2) else (.REPEAT, a.2)

/-- The transition table, waypoint_generator.cpp:39-51. -/
def wgTable : List (PlannerState × Transition × PlannerState) :=
  [(.TRY_PATH, .NEXT1, .ALTITUDE_CHANGE), (.TRY_PATH, .NEXT2, .DIRECT), (.TRY_PATH, .NEXT3, .LOITER),
   (.LOITER, .NEXT1, .TRY_PATH),
   (.DIRECT, .NEXT1, .TRY_PATH), (.DIRECT, .NEXT2, .ALTITUDE_CHANGE), (.DIRECT, .NEXT3, .LOITER),
   (.ALTITUDE_CHANGE, .NEXT1, .TRY_PATH), (.ALTITUDE_CHANGE, .NEXT2, .LOITER)]

/-- `runCurrentState`, waypoint_generator.cpp:54-80.  `state_changed_` is reset at line 78 and set
again by `chooseNextState` (line 37), which runs exactly when the transition is not `REPEAT`. -/
def wgRun (st : PlannerState) (s : WgState) : Transition × WgState :=
  let r := match st with
    | .TRY_PATH => runTryPath s
    | .ALTITUDE_CHANGE => runAltitudeChange s
    | .LOITER => runLoiter s
    | .DIRECT => runDirect s
  (r.1, { r.2 with state_changed := decide (r.1 ≠ .REPEAT) })

/-- The state machine, waypoint_generator.cpp:12, 35-80. -/
def wgMachine : Machine PlannerState WgState := ⟨wgRun, usmTable .LOITER wgTable⟩

/-- `updateState`, waypoint_generator.cpp:226-261. -/
def wgUpdate (s : WgState) (i : WgIn) : WgState :=
  let s := { s with
    position := i.position, velocity := i.velocity, goal := i.goal, curr_yaw := i.yaw,
    curr_pitch := i.pitch, nav := i.nav, is_land := i.is_land, is_takeoff := i.is_takeoff,
    desired_vel := i.desired_vel, loiter := i.stay, airborne := i.airborne }
  let s := if s.airborne = false ∨ s.smoothed_loc = none then
    { s with smoothed_loc := some s.position, smoothed_vel := ⟨0, 0, 0⟩, setpoint_yaw := s.curr_yaw,
             setpoint_yaw_velocity := 0, reach_altitude_offboard := false }
    else s
  if s.auto_land then { s with smoothed_loc := some s.position, smoothed_vel := ⟨0, 0, 0⟩ } else s

/-- One call of `calculateWaypoints` of the node: `updateState`, then `getWaypoints`
(`calculateWaypoint`, waypoint_generator.cpp:201-216) at time `now`. -/
def wgCycle (x : PlannerState × WgState) (i : WgIn) (now : ℝ) : PlannerState × WgState :=
  let s := wgUpdate x.2 i
  let s := { s with out_linear_velocity := V3.nan, last_time := s.current_time, current_time := now }
  wgMachine.iterateOnce x.1 s

/-- Any number of cycles; between cycles the planner thread may deliver new planner output
(`setPlannerInfo`, waypoint_generator.cpp:455-458), fields of view (`setFOV`, lines 218-224) and
smoothing parameters. -/
def wgRunAll (x : PlannerState × WgState) :
    List ((WgState → WgState) × WgIn × ℝ) → PlannerState × WgState
  | [] => x
  | (f, i, now) :: rest => wgRunAll (wgCycle (x.1, f x.2) i now) rest

/-- What may be changed between cycles. -/
def setInputs (p : PlannerInfo) (sxy sz : ℝ) (fovs : List (FOV ℝ)) (s : WgState) : WgState :=
  { s with planner := p, smoothing_speed_xy := sxy, smoothing_speed_z := sz, fovs := fovs }

end
end Avoidance
