import Verif.WpGen
import Verif.UsmProps
import Verif.LocalPlannerProps
import Verif.FovProps

/-!
# C37, C38: mode selection and setpoint speed of the local waypoint generator
-/

namespace Avoidance
open Classical

/-! ## Frame: what computing the message does not touch -/

/-- The parts of the state `getPathMsg` leaves alone. -/
structure WgFrame (s s' : WgState) : Prop where
  planner : s'.planner = s.planner
  sxy : s'.smoothing_speed_xy = s.smoothing_speed_xy
  sz : s'.smoothing_speed_z = s.smoothing_speed_z
  fovs : s'.fovs = s.fovs
  position : s'.position = s.position
  velocity : s'.velocity = s.velocity
  goal : s'.goal = s.goal
  nav : s'.nav = s.nav
  is_land : s'.is_land = s.is_land
  is_takeoff : s'.is_takeoff = s.is_takeoff
  loiter : s'.loiter = s.loiter
  airborne : s'.airborne = s.airborne
  last_time : s'.last_time = s.last_time
  current_time : s'.current_time = s.current_time
  hover : s'.hover_position = s.hover_position
  change_alt : s'.change_altitude_pos = s.change_altitude_pos
  yaw_reach : s'.yaw_reach_height = s.yaw_reach_height
  reach : s'.reach_altitude_offboard = s.reach_altitude_offboard
  auto_land : s'.auto_land = s.auto_land
  state_changed : s'.state_changed = s.state_changed
  velocity_out : s'.out_linear_velocity = s.out_linear_velocity
  smoothed : s.smoothed_loc.isSome → s'.smoothed_loc.isSome

theorem WgFrame.trans {a b c : WgState} (h1 : WgFrame a b) (h2 : WgFrame b c) : WgFrame a c := by
  constructor <;> first
    | exact (h2.planner.trans h1.planner) | exact h2.sxy.trans h1.sxy | exact h2.sz.trans h1.sz
    | exact h2.fovs.trans h1.fovs | exact h2.position.trans h1.position
    | exact h2.velocity.trans h1.velocity | exact h2.goal.trans h1.goal | exact h2.nav.trans h1.nav
    | exact h2.is_land.trans h1.is_land | exact h2.is_takeoff.trans h1.is_takeoff
    | exact h2.loiter.trans h1.loiter | exact h2.airborne.trans h1.airborne
    | exact h2.last_time.trans h1.last_time | exact h2.current_time.trans h1.current_time
    | exact h2.hover.trans h1.hover | exact h2.change_alt.trans h1.change_alt
    | exact h2.yaw_reach.trans h1.yaw_reach | exact h2.reach.trans h1.reach
    | exact h2.auto_land.trans h1.auto_land | exact h2.state_changed.trans h1.state_changed
    | exact h2.velocity_out.trans h1.velocity_out | exact fun h => h2.smoothed (h1.smoothed h)

theorem WgFrame.refl (s : WgState) : WgFrame s s := by
  constructor <;> first | rfl | exact fun h => h

theorem nextSmoothYaw_frame (st : PlannerState) (dt : ℝ) (s : WgState) :
    WgFrame s (nextSmoothYaw st dt s) ∧ (nextSmoothYaw st dt s).out_goto = s.out_goto ∧
    (nextSmoothYaw st dt s).speed = s.speed ∧ (nextSmoothYaw st dt s).out_smoothed = s.out_smoothed ∧
    (nextSmoothYaw st dt s).out_adapted = s.out_adapted ∧
    (nextSmoothYaw st dt s).smoothed_loc = s.smoothed_loc ∧
    (nextSmoothYaw st dt s).smoothed_vel = s.smoothed_vel := by
  unfold nextSmoothYaw
  dsimp only
  by_cases h : s.smoothing_speed_xy ≤ 1 / 100
  · rw [if_pos h]; exact ⟨by constructor <;> first | rfl | exact fun h => h, rfl, rfl, rfl, rfl, rfl, rfl⟩
  · rw [if_neg h]; exact ⟨by constructor <;> first | rfl | exact fun h => h, rfl, rfl, rfl, rfl, rfl, rfl⟩

theorem adaptSpeed_frame (st : PlannerState) (dt : ℝ) (s : WgState) : WgFrame s (adaptSpeed st dt s) := by
  unfold adaptSpeed
  dsimp only
  by_cases h : (s.goal.minus s.position).norm < 1
  · rw [if_pos h]; constructor <;> first | rfl | exact fun h => h
  · rw [if_neg h]; constructor <;> first | rfl | exact fun h => h

theorem smoothWaypoint_frame (dt : ℝ) (s : WgState) : WgFrame s (smoothWaypoint dt s) ∧
    (smoothWaypoint dt s).out_goto = s.out_goto ∧ (smoothWaypoint dt s).out_adapted = s.out_adapted ∧
    (smoothWaypoint dt s).speed = s.speed := by
  unfold smoothWaypoint
  by_cases h : s.smoothing_speed_xy < 1 / 100 ∨ s.smoothing_speed_z < 1 / 100
  · rw [if_pos h]; exact ⟨by constructor <;> first | rfl | exact fun h => h, rfl, rfl, rfl⟩
  · rw [if_neg h]
    rcases hl : s.smoothed_loc with _ | l
    · exact ⟨WgFrame.refl s, rfl, rfl, rfl⟩
    · exact ⟨by constructor <;> first | rfl | (intro _; rfl), rfl, rfl, rfl⟩

theorem getPathMsg_frame (st : PlannerState) (s : WgState) : WgFrame s (getPathMsg st s) := by
  unfold getPathMsg
  dsimp only
  have h1 := (nextSmoothYaw_frame st (pathDt { s with out_adapted := s.out_goto })
    { s with out_adapted := s.out_goto }).1
  have h0 : WgFrame s { s with out_adapted := s.out_goto } := by
    constructor <;> first | rfl | exact fun h => h
  generalize nextSmoothYaw st (pathDt { s with out_adapted := s.out_goto })
    { s with out_adapted := s.out_goto } = s1 at h1 ⊢
  generalize pathDt { s with out_adapted := s.out_goto } = dt
  have hlast : ∀ a : WgState, WgFrame a { a with out_position := a.out_smoothed.fin } := fun a => by
    constructor <;> first | rfl | exact fun h => h
  by_cases h : s1.auto_land = true
  · rw [if_pos h]; exact (h0.trans h1).trans (hlast s1)
  · rw [if_neg h]
    exact ((h0.trans h1).trans ((adaptSpeed_frame st dt s1).trans (smoothWaypoint_frame dt _).1)).trans (hlast _)

/-! ## When an altitude change is due -/

/-- The vehicle has to change altitude before doing anything else. -/
def AltitudeNeeded (z goal_z : ℝ) (nav : NavState) (is_takeoff is_land reached : Bool) : Prop :=
  (nav = .offboard ∧ reached = false ∧ z < goal_z) ∨
  nav = .auto_takeoff ∨ (nav = .mission ∧ is_takeoff = true) ∨
  (nav = .auto_rtl ∧ z ≤ goal_z - 4 / 5) ∨
  nav = .auto_land ∨ (nav = .mission ∧ is_land = true)

/-- **C37, altitude change.** `isAltitudeChange` answers exactly `AltitudeNeeded`; it records landing
as "AUTO.LAND or a land item of the mission" – the RTL descent the code also mentions can never be the
case, because the test before it is its negation –, and remembers having reached the goal altitude in
offboard mode. -/
theorem C37_altitude_change (s : WgState) :
    ((isAltitudeChange s).1 = true ↔
      AltitudeNeeded s.position.z s.goal.z s.nav s.is_takeoff s.is_land s.reach_altitude_offboard) ∧
    ((isAltitudeChange s).2.auto_land = true ↔
      s.nav = .auto_land ∨ (s.nav = .mission ∧ s.is_land = true)) ∧
    ((isAltitudeChange s).2.reach_altitude_offboard = true ↔
      s.reach_altitude_offboard = true ∨ (s.nav = .offboard ∧ s.goal.z ≤ s.position.z)) := by
  unfold isAltitudeChange AltitudeNeeded
  by_cases hz : s.position.z > s.goal.z - 4 / 5
  · rcases hnav : s.nav <;> rcases hr : s.reach_altitude_offboard <;> rcases ht : s.is_takeoff <;>
      rcases hl : s.is_land <;>
      by_cases hge : s.goal.z ≤ s.position.z <;>
      simp [hz, hge, hr, not_le.2 hz, not_lt.2, le_of_lt] <;> first | exact hge | exact not_le.1 hge | skip
  · have hlt : s.position.z < s.goal.z := by push Not at hz; linarith
    have hz' : s.position.z ≤ s.goal.z - 4 / 5 := not_lt.1 hz
    rcases hnav : s.nav <;> rcases hr : s.reach_altitude_offboard <;> rcases ht : s.is_takeoff <;>
      rcases hl : s.is_land <;>
      simp [hz, hlt, hz', hr, not_le.2 hlt]

theorem isAltitudeChange_eq (s : WgState) : ∃ al re, (isAltitudeChange s).2 =
    { s with auto_land := al, reach_altitude_offboard := re } := by
  unfold isAltitudeChange
  dsimp only
  split_ifs <;> exact ⟨_, _, rfl⟩

/-! ## One cycle -/

/-- Inputs of a cycle before the state machine runs. -/
noncomputable def wgStart (s : WgState) (i : WgIn) (now : ℝ) : WgState :=
  let s := wgUpdate s i
  { s with out_linear_velocity := V3.nan, last_time := s.current_time, current_time := now }

/-- The goal altitude counts as reached at the start of a cycle. -/
def reachedBefore (s : WgState) (i : WgIn) : Bool :=
  i.airborne && s.smoothed_loc.isSome && s.reach_altitude_offboard

theorem wgStart_spec (s : WgState) (i : WgIn) (now : ℝ) :
    let a := wgStart s i now
    a.planner = s.planner ∧ a.position = i.position ∧ a.velocity = i.velocity ∧ a.goal = i.goal ∧
    a.nav = i.nav ∧ a.is_land = i.is_land ∧ a.is_takeoff = i.is_takeoff ∧ a.loiter = i.stay ∧
    a.airborne = i.airborne ∧ a.current_time = now ∧ a.last_time = s.current_time ∧
    a.state_changed = s.state_changed ∧
    a.hover_position = s.hover_position ∧ a.change_altitude_pos = s.change_altitude_pos ∧
    a.yaw_reach_height = s.yaw_reach_height ∧ a.reach_altitude_offboard = reachedBefore s i ∧
    a.auto_land = s.auto_land ∧ a.speed = s.speed ∧ a.smoothed_loc.isSome ∧ a.curr_yaw = i.yaw ∧
    a.smoothing_speed_xy = s.smoothing_speed_xy ∧ a.smoothing_speed_z = s.smoothing_speed_z ∧
    a.fovs = s.fovs ∧ a.out_linear_velocity = V3.nan := by
  unfold wgStart wgUpdate reachedBefore
  rcases ha : i.airborne <;> rcases hs : s.smoothed_loc with _ | l <;> rcases hl : s.auto_land <;>
    simp [ha, hs, hl]

theorem wgCycle_eq (x : PlannerState × WgState) (i : WgIn) (now : ℝ) :
    wgCycle x i now = wgMachine.iterateOnce x.1 (wgStart x.2 i now) := rfl

/-- A path from the planner can be followed at time `now`. -/
def PathUsable (p : PlannerInfo) (now : ℝ) : Prop := (wgSetpoint p now).1 = true

theorem runTryPath_transition (s : WgState) : (runTryPath s).1 =
    if s.loiter = true then .NEXT3
    else if AltitudeNeeded s.position.z s.goal.z s.nav s.is_takeoff s.is_land s.reach_altitude_offboard then .NEXT1
    else if PathUsable s.planner s.current_time then .REPEAT else .NEXT2 := by
  unfold runTryPath PathUsable
  dsimp only
  generalize hg : ({ s with out_goto := _ } : WgState) = g
  have e : WgFrame s (getPathMsg .TRY_PATH g) := by
    refine WgFrame.trans ?_ (getPathMsg_frame _ g)
    subst hg; constructor <;> first | rfl | exact fun h => h
  have ha := (C37_altitude_change (getPathMsg .TRY_PATH g)).1
  rw [e.position, e.goal, e.nav, e.is_takeoff, e.is_land, e.reach] at ha
  rw [e.loiter]
  by_cases h1 : s.loiter = true
  · rw [if_pos h1, if_pos h1]
  · rw [if_neg h1, if_neg h1]
    by_cases h2 : (isAltitudeChange (getPathMsg .TRY_PATH g)).1 = true
    · rw [if_pos h2, if_pos (ha.1 h2)]
    · rw [if_neg h2, if_neg (fun h => h2 (ha.2 h))]
      by_cases h3 : (wgSetpoint s.planner s.current_time).1 = true
      · rw [if_pos h3, if_pos h3]
      · rw [if_neg h3, if_neg h3]

theorem altTarget_frame (s : WgState) :
    (altTarget (altEnter s)).loiter = s.loiter ∧ (altTarget (altEnter s)).position = s.position ∧
    (altTarget (altEnter s)).goal.z = s.goal.z ∧ (altTarget (altEnter s)).nav = s.nav ∧
    (altTarget (altEnter s)).is_takeoff = s.is_takeoff ∧ (altTarget (altEnter s)).is_land = s.is_land ∧
    (altTarget (altEnter s)).reach_altitude_offboard = s.reach_altitude_offboard ∧
    (altTarget (altEnter s)).smoothed_loc = s.smoothed_loc ∧
    (altTarget (altEnter s)).planner = s.planner ∧
    (altTarget (altEnter s)).auto_land = s.auto_land ∧ (altTarget (altEnter s)).speed = s.speed ∧
    (altTarget (altEnter s)).fovs = s.fovs ∧
    (altTarget (altEnter s)).current_time = s.current_time ∧
    (altTarget (altEnter s)).last_time = s.last_time ∧
    (altTarget (altEnter s)).hover_position = s.hover_position := by
  unfold altTarget altEnter
  rcases hc : s.state_changed <;> rcases hl : s.auto_land <;> simp only [Bool.false_eq_true, if_true, if_false]
  all_goals
    by_cases h1 : s.nav = .offboard
    · simp [h1, hl]
    · by_cases h2 : s.velocity.normXY > 1 / 2
      · simp only [h1, h2, if_true, if_false]; simp [hl]
      · simp only [h1, h2, if_true, if_false, hl, Bool.false_eq_true]; simp

theorem runAltitudeChange_transition (s : WgState) : (runAltitudeChange s).1 =
    if s.loiter = true then .NEXT2
    else if AltitudeNeeded s.position.z s.goal.z s.nav s.is_takeoff s.is_land s.reach_altitude_offboard then .REPEAT
    else .NEXT1 := by
  unfold runAltitudeChange
  dsimp only
  obtain ⟨f1, f2, f3, f4, f5, f6, f7, -⟩ := altTarget_frame s
  have e := getPathMsg_frame .ALTITUDE_CHANGE (altTarget (altEnter s))
  generalize getPathMsg .ALTITUDE_CHANGE (altTarget (altEnter s)) = g at e ⊢
  have ha := (C37_altitude_change g).1
  rw [e.position, e.goal, e.nav, e.is_takeoff, e.is_land, e.reach, f2, f3, f4, f5, f6, f7] at ha
  rw [e.loiter, f1]
  by_cases h1 : s.loiter = true
  · rw [if_pos h1, if_pos h1]
  · rw [if_neg h1, if_neg h1]
    by_cases h2 : (isAltitudeChange g).1 = true
    · rw [if_pos h2, if_pos (ha.1 h2)]
    · rw [if_neg h2, if_neg (fun h => h2 (ha.2 h))]

theorem runLoiter_transition (s : WgState) : (runLoiter s).1 = if s.loiter = true then .REPEAT else .NEXT1 := by
  unfold runLoiter
  dsimp only
  generalize hg : ({ s with hover_position := _, out_goto := _ } : WgState) = g
  have hl : g.loiter = s.loiter := by subst hg; rfl
  rw [(getPathMsg_frame .LOITER g).loiter, hl]
  by_cases h1 : s.loiter = true
  · rw [if_pos h1, if_pos h1]
  · rw [if_neg h1, if_neg h1]

theorem runDirect_transition (s : WgState) : (runDirect s).1 =
    if PathUsable s.planner s.current_time then .NEXT1
    else if AltitudeNeeded s.position.z s.goal.z s.nav s.is_takeoff s.is_land s.reach_altitude_offboard then .NEXT2
    else if s.loiter = true then .NEXT3 else .REPEAT := by
  unfold runDirect PathUsable
  dsimp only
  generalize hg : ({ s with out_goto := _ } : WgState) = g
  have e : WgFrame s (getPathMsg .DIRECT g) := by
    refine WgFrame.trans ?_ (getPathMsg_frame _ g)
    subst hg; constructor <;> first | rfl | exact fun h => h
  have ha := (C37_altitude_change (getPathMsg .DIRECT g)).1
  rw [e.position, e.goal, e.nav, e.is_takeoff, e.is_land, e.reach] at ha
  rw [e.planner, e.current_time]
  by_cases h3 : (wgSetpoint s.planner s.current_time).1 = true
  · rw [if_pos h3, if_pos h3]
  · rw [if_neg h3, if_neg h3]
    by_cases h2 : (isAltitudeChange (getPathMsg .DIRECT g)).1 = true
    · rw [if_pos h2, if_pos (ha.1 h2)]
    · rw [if_neg h2, if_neg (fun h => h2 (ha.2 h))]
      obtain ⟨al, re, hal⟩ := isAltitudeChange_eq (getPathMsg .DIRECT g)
      rw [hal]
      show (if (getPathMsg .DIRECT g).loiter = true then (Transition.NEXT3, _) else (Transition.REPEAT, _)).1 = _
      rw [e.loiter]
      by_cases h1 : s.loiter = true
      · rw [if_pos h1, if_pos h1]
      · rw [if_neg h1, if_neg h1]

/-- **C37, mode selection.** The mode after each cycle, from the mode before it and the inputs. -/
theorem C37_next_state (x : PlannerState × WgState) (i : WgIn) (now : ℝ) :
    let alt := AltitudeNeeded i.position.z i.goal.z i.nav i.is_takeoff i.is_land (reachedBefore x.2 i)
    let path := PathUsable x.2.planner now
    (wgCycle x i now).1 = match x.1 with
      | .LOITER => if i.stay = true then .LOITER else .TRY_PATH
      | .TRY_PATH => if i.stay = true then .LOITER else if alt then .ALTITUDE_CHANGE
          else if path then .TRY_PATH else .DIRECT
      | .ALTITUDE_CHANGE => if i.stay = true then .LOITER else if alt then .ALTITUDE_CHANGE else .TRY_PATH
      | .DIRECT => if path then .TRY_PATH else if alt then .ALTITUDE_CHANGE
          else if i.stay = true then .LOITER else .DIRECT := by
  obtain ⟨st, s⟩ := x
  dsimp only
  obtain ⟨a1, a2, a3, a4, a5, a6, a7, a8, a9, a10, -, -, -, -, -, a16, -⟩ := wgStart_spec s i now
  have e1 := runTryPath_transition (wgStart s i now)
  have e2 := runAltitudeChange_transition (wgStart s i now)
  have e3 := runLoiter_transition (wgStart s i now)
  have e4 := runDirect_transition (wgStart s i now)
  rw [a8, a2, a4, a5, a6, a7, a16] at e1 e2
  rw [a8] at e3
  rw [a8, a2, a4, a5, a6, a7, a16] at e4
  rw [a1, a10] at e1 e4
  rw [wgCycle_eq]
  unfold Machine.iterateOnce wgMachine wgRun
  dsimp only
  cases st <;> dsimp only
  all_goals
    by_cases h1 : i.stay = true <;> by_cases h2 : AltitudeNeeded i.position.z i.goal.z i.nav i.is_takeoff
      i.is_land (reachedBefore s i) <;> by_cases h3 : PathUsable s.planner now <;>
    simp only [e1, e2, e3, e4, h1, h2, h3, if_true, if_false] <;> rfl

/-- Every transition the states emit has an entry of its own in the table (the error entry is never
used), in every state of the members. -/
theorem C37_transitions_mapped (st : PlannerState) (s : WgState) :
    (wgRun st s).1 = .REPEAT ∨ ∃ n, (st, (wgRun st s).1, n) ∈ wgTable := by
  unfold wgRun
  cases st <;> dsimp only
  · rw [runTryPath_transition]; split_ifs <;> simp [wgTable]
  · rw [runAltitudeChange_transition]; split_ifs <;> simp [wgTable]
  · rw [runLoiter_transition]; split_ifs <;> simp [wgTable]
  · rw [runDirect_transition]; split_ifs <;> simp [wgTable]

/-- **C37, loiter.** A loiter request that lasts two cycles is honoured from every mode, the mode is
kept while the request lasts and left in the first cycle without it.  (The second cycle is needed:
`DIRECT` gives priority to a usable path and to altitude changes.) -/
theorem C37_loiter (x : PlannerState × WgState) (f : WgState → WgState) (i1 i2 : WgIn) (t1 t2 : ℝ)
    (h1 : i1.stay = true) (h2 : i2.stay = true) :
    (wgCycle ((wgCycle x i1 t1).1, f (wgCycle x i1 t1).2) i2 t2).1 = .LOITER ∧
    (x.1 = .LOITER → (wgCycle x i1 t1).1 = .LOITER) ∧
    (∀ i t, x.1 = .LOITER → i.stay = false → (wgCycle x i t).1 = .TRY_PATH) := by
  have e1 := C37_next_state x i1 t1
  have e2 := C37_next_state ((wgCycle x i1 t1).1, f (wgCycle x i1 t1).2) i2 t2
  dsimp only at e1 e2
  refine ⟨?_, ?_, ?_⟩
  · rw [e2]
    generalize hs : (wgCycle x i1 t1).1 = st at e1
    rw [h1] at e1
    rw [h2]
    obtain ⟨st0, s0⟩ := x
    cases st0 <;> dsimp only at e1
    all_goals first
      | (rw [if_pos rfl] at e1; subst e1; rfl)
      | (split_ifs at e1 <;> subst e1 <;> first | rfl | simp_all)
  · intro h; rw [e1, h, h1]; rfl
  · intro i t h hs; rw [C37_next_state, h, hs]; rfl

/-- One cycle is not enough: with a usable path, `DIRECT` first goes to `TRY_PATH`. -/
theorem C37_loiter_delay (s : WgState) (i : WgIn) (now : ℝ) (_h : i.stay = true)
    (hp : PathUsable s.planner now) : (wgCycle (.DIRECT, s) i now).1 = .TRY_PATH := by
  rw [C37_next_state]; dsimp only; rw [if_pos hp]

/-- The state after a mode has set its target and before the message is computed. -/
noncomputable def targetOf (st : PlannerState) (s : WgState) : WgState :=
  match st with
  | .TRY_PATH => { s with out_goto := match (wgSetpoint s.planner s.current_time).2 with
      | some setpoint => s.position.plus (setpoint.minus s.position).normalized
      | none => s.position }
  | .ALTITUDE_CHANGE => altTarget (altEnter s)
  | .LOITER =>
    let hover := if s.state_changed then s.position else s.hover_position.getD s.position
    { s with hover_position := some hover, out_goto := hover }
  | .DIRECT => { s with out_goto := s.position.plus (s.goal.minus s.position).normalized }

theorem targetOf_reach (st : PlannerState) (s : WgState) :
    (targetOf st s).reach_altitude_offboard = s.reach_altitude_offboard ∧ (targetOf st s).nav = s.nav ∧
    (targetOf st s).goal.z = s.goal.z ∧ (targetOf st s).position = s.position := by
  cases st
  · exact ⟨rfl, rfl, rfl, rfl⟩
  · obtain ⟨f1, f2, f3, f4, f5, f6, f7, -⟩ := altTarget_frame s
    exact ⟨f7, f4, f3, f2⟩
  · exact ⟨rfl, rfl, rfl, rfl⟩
  · exact ⟨rfl, rfl, rfl, rfl⟩

/-- Whatever the mode, a cycle consists of setting the target, computing the message and updating
three flags. -/
theorem wgRun_out (st : PlannerState) (s : WgState) : ∃ al re sc,
    (wgRun st s).2 = { getPathMsg st (targetOf st s) with
      auto_land := al, reach_altitude_offboard := re, state_changed := sc } ∧
    (re = true → s.reach_altitude_offboard = true ∨ (s.nav = .offboard ∧ s.goal.z ≤ s.position.z)) := by
  obtain ⟨t1, t2, t3, t4⟩ := targetOf_reach st s
  have e := getPathMsg_frame st (targetOf st s)
  have plain : ∀ tr : Transition, ∃ al re sc,
      ({ getPathMsg st (targetOf st s) with state_changed := decide (tr ≠ .REPEAT) } : WgState) =
        { getPathMsg st (targetOf st s) with
          auto_land := al, reach_altitude_offboard := re, state_changed := sc } ∧
      (re = true → s.reach_altitude_offboard = true ∨ (s.nav = .offboard ∧ s.goal.z ≤ s.position.z)) :=
    fun tr => ⟨(getPathMsg st (targetOf st s)).auto_land,
      (getPathMsg st (targetOf st s)).reach_altitude_offboard, decide (tr ≠ .REPEAT), rfl,
      fun h => Or.inl (by rw [e.reach, t1] at h; exact h)⟩
  have alt : ∀ tr : Transition, ∃ al re sc,
      ({ (isAltitudeChange (getPathMsg st (targetOf st s))).2 with state_changed := decide (tr ≠ .REPEAT) } : WgState) =
        { getPathMsg st (targetOf st s) with
          auto_land := al, reach_altitude_offboard := re, state_changed := sc } ∧
      (re = true → s.reach_altitude_offboard = true ∨ (s.nav = .offboard ∧ s.goal.z ≤ s.position.z)) := by
    intro tr
    obtain ⟨al, re, hal⟩ := isAltitudeChange_eq (getPathMsg st (targetOf st s))
    refine ⟨al, re, decide (tr ≠ .REPEAT), by rw [hal], fun h => ?_⟩
    have h3 := (C37_altitude_change (getPathMsg st (targetOf st s))).2.2
    rw [hal, e.reach, e.nav, e.goal, e.position, t1, t2, t3, t4] at h3
    exact h3.1 h
  unfold wgRun
  cases st <;> dsimp only
  · unfold runTryPath
    dsimp only
    change ∃ al re sc, ({ (if (getPathMsg .TRY_PATH (targetOf .TRY_PATH s)).loiter = true then _ else _ :
      Transition × WgState).2 with state_changed := _ } : WgState) = _ ∧ _
    by_cases h1 : (getPathMsg .TRY_PATH (targetOf .TRY_PATH s)).loiter = true
    · rw [if_pos h1]; exact plain _
    · rw [if_neg h1]; split_ifs <;> exact alt _
  · unfold runAltitudeChange
    dsimp only
    change ∃ al re sc, ({ (if (getPathMsg .ALTITUDE_CHANGE (targetOf .ALTITUDE_CHANGE s)).loiter = true then _ else _ :
      Transition × WgState).2 with state_changed := _ } : WgState) = _ ∧ _
    by_cases h1 : (getPathMsg .ALTITUDE_CHANGE (targetOf .ALTITUDE_CHANGE s)).loiter = true
    · rw [if_pos h1]; exact plain _
    · rw [if_neg h1]; split_ifs <;> exact alt _
  · unfold runLoiter
    dsimp only
    change ∃ al re sc, ({ (if (getPathMsg .LOITER (targetOf .LOITER s)).loiter = true then _ else _ :
      Transition × WgState).2 with state_changed := _ } : WgState) = _ ∧ _
    by_cases h1 : (getPathMsg .LOITER (targetOf .LOITER s)).loiter = true
    · rw [if_pos h1]; exact plain _
    · rw [if_neg h1]; exact plain _
  · unfold runDirect
    dsimp only
    split_ifs <;> first | exact plain _ | exact alt _

/-- **C37, altitude first.** In offboard mode below the goal altitude (not yet reached since take-off)
and without a loiter request, the generator is in `ALTITUDE_CHANGE` after at most two cycles and
stays there until the altitude is reached. -/
theorem C37_offboard_altitude_first (x : PlannerState × WgState) (i : WgIn) (t : ℝ)
    (hs : i.stay = false) (hn : i.nav = .offboard) (hr : reachedBefore x.2 i = false)
    (hz : i.position.z < i.goal.z) :
    ((wgCycle x i t).1 = .ALTITUDE_CHANGE ∨ ((wgCycle x i t).1 = .TRY_PATH ∧ x.1 ≠ .TRY_PATH ∧ x.1 ≠ .ALTITUDE_CHANGE)) ∧
    (wgCycle x i t).2.reach_altitude_offboard = false := by
  have halt : AltitudeNeeded i.position.z i.goal.z i.nav i.is_takeoff i.is_land (reachedBefore x.2 i) :=
    Or.inl ⟨hn, hr, hz⟩
  constructor
  · rw [C37_next_state]
    obtain ⟨st, s⟩ := x
    cases st <;> simp only [halt, hs, if_true, if_false, Bool.false_eq_true] <;> simp
    by_cases hp : PathUsable s.planner t <;> simp [hp]
  · rw [wgCycle_eq]
    show (wgRun x.1 (wgStart x.2 i t)).2.reach_altitude_offboard = false
    obtain ⟨a1, a2, a3, a4, a5, a6, a7, a8, a9, a10, -, -, -, -, -, a16, -⟩ := wgStart_spec x.2 i t
    obtain ⟨al, re, sc, h1, h2⟩ := wgRun_out x.1 (wgStart x.2 i t)
    rw [h1]
    show re = false
    rw [Bool.eq_false_iff]
    intro h
    rcases h2 h with h' | ⟨-, h'⟩
    · rw [a16, hr] at h'; simp at h'
    · rw [a4, a2] at h'; linarith

end Avoidance
