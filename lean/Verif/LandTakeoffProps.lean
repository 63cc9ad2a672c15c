import Verif.ClimbProps

/-!
# Landing and take-off commanded by the autopilot (C115)

The local planner node while the autopilot lands or takes off (`AUTO.LAND`, `AUTO.TAKEOFF`, land and take-off items of a mission), in a closed loop with the vehicle.
-/

namespace Avoidance
variable {Q : PriorityQueue (Candidate ℝ) Candidate.lt}

/-! ## One cycle of the generator in `ALTITUDE_CHANGE`, not offboard -/

/-- Where the altitude is changed. -/
theorem cycle_place (s : WgState) (i : WgIn) (now : ℝ) : (wgCycle (.ALTITUDE_CHANGE, s) i now).2.change_altitude_pos =
    if i.nav ≠ .offboard ∧ 1 / 2 < i.velocity.normXY then some i.position else if s.state_changed = true then some i.position else s.change_altitude_pos := by
  obtain ⟨al, re, sc, ho⟩ := wgCycle_out (.ALTITUDE_CHANGE, s) i now
  obtain ⟨a1, a2, a3, a4, a5, a6, a7, a8, a9, a10, a11, a12, a13, a14, a15, a16, a17, -⟩ := wgStart_spec s i now
  rw [ho]
  dsimp only
  rw [(getPathMsg_frame _ _).change_alt]
  show (altTarget (altEnter (wgStart s i now))).change_altitude_pos = _
  have e1 : (altEnter (wgStart s i now)).nav = i.nav ∧ (altEnter (wgStart s i now)).position = i.position ∧ (altEnter (wgStart s i now)).velocity = i.velocity ∧
      (altEnter (wgStart s i now)).change_altitude_pos = if s.state_changed = true then some i.position else s.change_altitude_pos := by
    unfold altEnter
    rw [a12]
    by_cases h : s.state_changed = true
    · rw [if_pos h, if_pos h]; exact ⟨a5, a2, a3, by dsimp only; rw [a2]⟩
    · rw [if_neg h, if_neg h]; exact ⟨a5, a2, a3, a14⟩
  generalize altEnter (wgStart s i now) = c at e1
  obtain ⟨c1, c2, c3, c4⟩ := e1
  unfold altTarget
  rw [c1, c3]
  by_cases h1 : i.nav = .offboard
  · have hno : ¬ (i.nav ≠ .offboard ∧ 1 / 2 < i.velocity.normXY) := fun h => h.1 h1
    rw [if_pos h1, if_neg hno]
    exact c4
  · rw [if_neg h1]
    by_cases h2 : i.velocity.normXY > 1 / 2
    · rw [if_pos h2, if_pos ⟨h1, h2⟩, c2]
    · have hno : ¬ (i.nav ≠ .offboard ∧ 1 / 2 < i.velocity.normXY) := fun h => h2 h.2
      rw [if_neg h2, if_neg hno]
      by_cases h3 : c.auto_land = true
      · rw [if_pos h3]; exact c4
      · rw [if_neg h3]; exact c4

/-- The first cycle of a mode knows that it is the first. -/
theorem cycle_changed (x : PlannerState × WgState) (i : WgIn) (now : ℝ) (hs : i.stay = false) (h : (wgCycle x i now).1 = .ALTITUDE_CHANGE) :
    (wgCycle x i now).2.state_changed = decide (x.1 ≠ .ALTITUDE_CHANGE) := by
  obtain ⟨st, s⟩ := x
  have e : (wgCycle (st, s) i now).2.state_changed = decide ((wgRun st (wgStart s i now)).1 ≠ .REPEAT) := rfl
  have hm : (wgRun st (wgStart s i now)).1 = .REPEAT → (wgCycle (st, s) i now).1 = st := by
    intro hr
    rw [wgCycle_eq]
    unfold Machine.iterateOnce wgMachine
    dsimp only
    rw [hr]
    rfl
  rw [e]
  congr 1
  apply propext
  constructor
  · intro hr hst
    dsimp only at hst
    subst hst
    apply hr
    have a := (wgStart_spec s i now).2.2.2.2.2.2.2.1
    show (runAltitudeChange (wgStart s i now)).1 = .REPEAT
    have hn := C37_next_state (.ALTITUDE_CHANGE, s) i now
    dsimp only at hn
    rw [h, if_neg (by rw [hs]; decide)] at hn
    by_cases ha : AltitudeNeeded i.position.z i.goal.z i.nav i.is_takeoff i.is_land (reachedBefore s i)
    · obtain ⟨a1, a2, a3, a4, a5, a6, a7, a8, a9, a10, -, -, -, -, -, a16, -⟩ := wgStart_spec s i now
      rw [runAltitudeChange_transition, a8, a2, a4, a5, a6, a7, a16, if_neg (by rw [hs]; decide), if_pos ha]
    · rw [if_neg ha] at hn; cases hn
  · intro hst hr
    have := hm hr
    rw [h] at this
    exact hst this.symm

/-- During a landing, too fast: the own position, and stop. -/
theorem brake_cycle (s : WgState) (i : WgIn) (now : ℝ) (hl : s.auto_land = true) (hn : i.nav ≠ .offboard) (hv : 1 / 2 < i.velocity.normXY) :
    (wgCycle (.ALTITUDE_CHANGE, s) i now).2.out_position = i.position.fin := by
  obtain ⟨al, re, sc, ho⟩ := wgCycle_out (.ALTITUDE_CHANGE, s) i now
  obtain ⟨m1, -⟩ := targetOf_more .ALTITUDE_CHANGE (wgStart s i now)
  obtain ⟨a1, a2, a3, a4, a5, a6, a7, a8, a9, a10, a11, a12, a13, a14, a15, a16, a17, -⟩ := wgStart_spec s i now
  rw [ho]
  dsimp only
  rw [getPathMsg_position, (getPathMsg_landing _ _ (by rw [m1, a17, hl])).2.2.2]
  congr 1
  show (altTarget (altEnter (wgStart s i now))).out_smoothed = _
  unfold altTarget altEnter
  by_cases h : s.state_changed = true
  · rw [a12, if_pos h]
    dsimp only
    rw [a5, if_neg hn, a3, if_pos hv]
    exact a2
  · rw [a12, if_neg h, a5, if_neg hn, a3, if_pos hv]
    exact a2

/-- Whoever gets into `ALTITUDE_CHANGE` knows whether it is for a landing. -/
theorem enter_knows (x : PlannerState × WgState) (i : WgIn) (now : ℝ) (hs : i.stay = false) (h : (wgCycle x i now).1 = .ALTITUDE_CHANGE) :
    (wgCycle x i now).2.auto_land = true ↔ i.nav = .auto_land ∨ (i.nav = .mission ∧ i.is_land = true) := by
  obtain ⟨a1, a2, -, a4, a5, a6, a7, a8, -, a10, -⟩ := wgStart_spec x.2 i now
  have hyes : ∀ st, (isAltitudeChange (getPathMsg st (targetOf st (wgStart x.2 i now)))).2.auto_land = true ↔ i.nav = .auto_land ∨ (i.nav = .mission ∧ i.is_land = true) := by
    intro st
    have h3 := (C37_altitude_change (getPathMsg st (targetOf st (wgStart x.2 i now)))).2.1
    have e := getPathMsg_frame st (targetOf st (wgStart x.2 i now))
    have e6 : (targetOf st (wgStart x.2 i now)).is_land = i.is_land := by
      cases st
      · exact a6
      · exact (altTarget_frame _).2.2.2.2.2.1.trans a6
      · exact a6
      · exact a6
    rw [e.nav, e.is_land, (targetOf_reach st _).2.1, a5, e6] at h3
    exact h3
  have hlo : ∀ st, (getPathMsg st (targetOf st (wgStart x.2 i now))).loiter = false := by
    intro st
    rw [(getPathMsg_frame st _).loiter]
    have : (targetOf st (wgStart x.2 i now)).loiter = (wgStart x.2 i now).loiter := by
      cases st
      · rfl
      · exact (altTarget_frame _).1
      · rfl
      · rfl
    rw [this, a8, hs]
  have hn := C37_next_state x i now
  rw [h] at hn
  show (wgRun x.1 (wgStart x.2 i now)).2.auto_land = true ↔ _
  obtain ⟨st, g⟩ := x
  dsimp only at hn a1 a2 a4 a5 a6 a7 a8 a10 hyes hlo h ⊢
  cases st with
  | TRY_PATH =>
    unfold wgRun
    dsimp only
    unfold runTryPath
    dsimp only
    change (if (getPathMsg .TRY_PATH (targetOf .TRY_PATH (wgStart g i now))).loiter = true then _ else _ : Transition × WgState).2.auto_land = true ↔ _
    rw [if_neg (by rw [hlo]; decide)]
    have := hyes .TRY_PATH
    split_ifs <;> exact this
  | ALTITUDE_CHANGE =>
    unfold wgRun
    dsimp only
    unfold runAltitudeChange
    dsimp only
    change (if (getPathMsg .ALTITUDE_CHANGE (targetOf .ALTITUDE_CHANGE (wgStart g i now))).loiter = true then _ else _ : Transition × WgState).2.auto_land = true ↔ _
    rw [if_neg (by rw [hlo]; decide)]
    have := hyes .ALTITUDE_CHANGE
    split_ifs <;> exact this
  | LOITER =>
    dsimp only at hn
    rw [if_neg (by rw [hs]; decide)] at hn
    cases hn
  | DIRECT =>
    dsimp only at hn
    by_cases hp : PathUsable g.planner now
    · rw [if_pos hp] at hn; cases hn
    unfold wgRun
    dsimp only
    unfold runDirect
    dsimp only
    have e := getPathMsg_frame .DIRECT (targetOf .DIRECT (wgStart g i now))
    have h1 : (getPathMsg .DIRECT (targetOf .DIRECT (wgStart g i now))).planner = g.planner := by rw [e.planner]; exact a1
    have h2 : (getPathMsg .DIRECT (targetOf .DIRECT (wgStart g i now))).current_time = now := by rw [e.current_time]; exact a10
    change (if (wgSetpoint (getPathMsg .DIRECT (targetOf .DIRECT (wgStart g i now))).planner (getPathMsg .DIRECT (targetOf .DIRECT (wgStart g i now))).current_time).1 = true then _ else _ :
        Transition × WgState).2.auto_land = true ↔ _
    rw [if_neg (by rw [h1, h2]; exact hp)]
    have := hyes .DIRECT
    split_ifs <;> exact this

/-- The setpoint of a take-off when the goal is straight above: straight above the vehicle, not above the goal; how far above. -/
theorem takeoff_cycle (s : WgState) (i : WgIn) (now : ℝ) (hl : s.auto_land = false) (h0 : 0 ≤ s.speed) (hn : i.nav ≠ .offboard) (hv : i.velocity.normXY ≤ 1 / 2)
    (hstart : let start := if s.state_changed then i.position else s.change_altitude_pos.getD i.position; start.x = i.position.x ∧ start.y = i.position.y)
    (hgx : i.goal.x = i.position.x) (hgy : i.goal.y = i.position.y) (hz : i.position.z < i.goal.z) (c : ℝ) (hc0 : 0 ≤ c) (hc : c ≤ s.planner.cruise_velocity.getD 2) :
    let o := (wgCycle (.ALTITUDE_CHANGE, s) i now).2
    let d := i.goal.z - i.position.z
    ∃ k : ℝ, 0 ≤ k ∧ k ≤ d ∧ o.out_adapted = ⟨i.position.x, i.position.y, i.position.z + k⟩ ∧
      ∀ tau, 0 < tau → tau ≤ now - s.current_time → advance (tau / (9 / 10 + tau)) c d ≤ k := by
  dsimp only at hstart ⊢
  obtain ⟨al, re, sc, ho⟩ := wgCycle_out (.ALTITUDE_CHANGE, s) i now
  obtain ⟨a1, a2, a3, a4, a5, a6, a7, a8, a9, a10, a11, a12, a13, a14, a15, a16, a17, a18, -⟩ := wgStart_spec s i now
  obtain ⟨m1, m2, m3, m4, m5, m6, m7⟩ := targetOf_more .ALTITUDE_CHANGE (wgStart s i now)
  have hD := goalDistance_eq .ALTITUDE_CHANGE s i now
  have hp := (targetOf_reach .ALTITUDE_CHANGE (wgStart s i now)).2.2.2
  have hgo := (C37_altitude_waypoint s i now)
  have hdt' := pathDt_target .ALTITUDE_CHANGE s i now
  dsimp only at hgo
  have hgo := hgo.2 hn
  rw [ho] at hgo ⊢
  dsimp only at hgo ⊢
  generalize hg : targetOf .ALTITUDE_CHANGE (wgStart s i now) = g at hgo m1 m2 m3 m4 m5 m6 m7 hD hp hdt'
  obtain ⟨s1, s2, s3⟩ := getPathMsg_speed .ALTITUDE_CHANGE g (by rw [m1, a17, hl])
  rw [hp, a2] at s3
  have hfov : fovFactor .ALTITUDE_CHANGE g = 1 := by unfold fovFactor; rw [if_neg (by simp)]
  have hup : ∀ e : ℝ, 0 < e → (⟨0, 0, e⟩ : V3 ℝ).norm = e := by
    intro e he
    unfold V3.norm V3.dot
    dsimp only
    rw [mul_zero, zero_add, zero_add, Real.sqrt_mul_self he.le]
  have hDe : goalDistance .ALTITUDE_CHANGE i = i.goal.z - i.position.z := by
    unfold goalDistance
    rw [if_neg (fun h => hn h.2), show i.goal.minus i.position = ⟨0, 0, i.goal.z - i.position.z⟩ by unfold V3.minus; rw [hgx, hgy]; simp, hup _ (by linarith)]
  rw [hDe] at hgo
  rw [hD, hDe, m4, a1, m2, a18, hdt', hfov, mul_one] at s1
  set d := i.goal.z - i.position.z with hd
  have hd0 : 0 < d := by rw [hd]; linarith
  set T := cycleTime s now with hT
  have hTpos : 0 < T := by
    rw [hT]; unfold cycleTime; split_ifs with h
    · linarith
    · norm_num
  have ha1 : T / (9 / 10 + T) ≤ 1 := by rw [div_le_one (by linarith)]; linarith
  have ha0 : 0 < T / (9 / 10 + T) := by positivity
  have hrest : 0 ≤ (1 - T / (9 / 10 + T)) * s.speed := mul_nonneg (by linarith) h0
  have hin0 : 0 ≤ (if d < 1 then d else s.planner.cruise_velocity.getD 2) := by
    split_ifs
    · exact hd0.le
    · exact hc0.trans hc
  set x := (getPathMsg .ALTITUDE_CHANGE g).speed with hx
  have hx0 : 0 ≤ x := by
    rw [s1]
    exact le_min (by have := mul_nonneg ha0.le hin0; linarith) hd0.le
  have hxd : x ≤ d := by rw [s1]; exact min_le_right _ _
  have hlow : ∀ tau, 0 < tau → tau ≤ now - s.current_time → min (tau / (9 / 10 + tau) * (if d < 1 then d else c)) d ≤ x := by
    intro tau ht hle
    have hTe : T = now - s.current_time := by rw [hT]; unfold cycleTime; rw [if_pos (by linarith)]
    have haa : tau / (9 / 10 + tau) ≤ T / (9 / 10 + T) := by
      rw [hTe, div_le_div_iff₀ (by linarith) (by linarith)]; nlinarith
    rw [s1]
    refine min_le_min ?_ le_rfl
    have h1 : (if d < 1 then d else c) ≤ (if d < 1 then d else s.planner.cruise_velocity.getD 2) := by
      split_ifs
      · exact le_rfl
      · exact hc
    have h2 := mul_le_mul haa h1 (by split_ifs <;> linarith) ha0.le
    linarith
  have hgoto : (getPathMsg .ALTITUDE_CHANGE g).out_goto = ⟨i.position.x, i.position.y, i.goal.z⟩ := by
    by_cases hnear : d < 1
    · rw [hgo.1 ⟨hl, hnear⟩, ← hgx, ← hgy]
    · rw [(hgo.2.2 hv).1 (fun h => hnear h.2), hstart.1, hstart.2]
  rw [hgoto] at s3
  have hw : (⟨i.position.x, i.position.y, i.goal.z⟩ : V3 ℝ).minus i.position = ⟨0, 0, d⟩ := by
    unfold V3.minus; rw [hd]; simp
  rw [hw, hup d hd0] at s3
  by_cases hten : d > 1 / 10
  · rw [if_pos hten, V3.smul_normalized (by rw [hup d hd0]; exact hd0), hup d hd0] at s3
    refine ⟨x, hx0, hxd, ?_, fun tau ht hle => ?_⟩
    · rw [s3]; unfold V3.plus V3.smul; simp only [mul_zero, add_zero]
      rw [div_mul_cancel₀ _ hd0.ne']
    · have hl2 := hlow tau ht hle
      have hb1 : tau / (9 / 10 + tau) ≤ 1 := by rw [div_le_one (by linarith)]; linarith
      unfold advance
      by_cases h1 : 1 ≤ d
      · rw [if_pos h1]; rw [if_neg (not_lt.mpr h1)] at hl2; exact hl2
      · rw [if_neg h1, if_pos hten]
        rw [if_pos (not_le.mp h1)] at hl2
        rw [min_eq_left (by nlinarith)] at hl2
        exact hl2
  · rw [if_neg hten] at s3
    have hdt : d ≤ 1 / 10 := not_lt.mp hten
    refine ⟨x * d, mul_nonneg hx0 hd0.le, by nlinarith, ?_, fun tau ht hle => ?_⟩
    · rw [s3]; unfold V3.plus V3.smul; simp only [mul_zero, add_zero]
    · have hl2 := hlow tau ht hle
      have hb1 : tau / (9 / 10 + tau) ≤ 1 := by rw [div_le_one (by linarith)]; linarith
      rw [if_pos (by linarith), min_eq_left (by nlinarith)] at hl2
      unfold advance
      rw [if_neg (by linarith), if_neg (by linarith)]
      calc tau / (9 / 10 + tau) * d ^ 2 = (tau / (9 / 10 + tau) * d) * d := by ring
        _ ≤ x * d := mul_le_mul_of_nonneg_right hl2 hd0.le

/-- The setpoint of a take-off when the goal is not straight above, and 10 cm or more higher: as far above the vehicle as the speed says. -/
theorem takeoff_aside_cycle (s : WgState) (i : WgIn) (now : ℝ) (hl : s.auto_land = false) (h0 : 0 ≤ s.speed) (hn : i.nav ≠ .offboard) (hv : i.velocity.normXY ≤ 1 / 2)
    (hstart : let start := if s.state_changed then i.position else s.change_altitude_pos.getD i.position; start.x = i.position.x ∧ start.y = i.position.y)
    (hfar : 1 ≤ (i.goal.minus i.position).norm) (hz : i.position.z + 1 / 10 < i.goal.z) (c : ℝ) (hc0 : 0 ≤ c) (hc : c ≤ s.planner.cruise_velocity.getD 2) :
    let o := (wgCycle (.ALTITUDE_CHANGE, s) i now).2
    ∃ k : ℝ, o.out_adapted = ⟨i.position.x, i.position.y, i.position.z + k⟩ ∧
      ∀ tau, 0 < tau → tau ≤ now - s.current_time → min (tau / (9 / 10 + tau) * c) (i.goal.minus i.position).norm ≤ k := by
  dsimp only at hstart ⊢
  obtain ⟨al, re, sc, ho⟩ := wgCycle_out (.ALTITUDE_CHANGE, s) i now
  obtain ⟨a1, a2, a3, a4, a5, a6, a7, a8, a9, a10, a11, a12, a13, a14, a15, a16, a17, a18, -⟩ := wgStart_spec s i now
  obtain ⟨m1, m2, m3, m4, m5, m6, m7⟩ := targetOf_more .ALTITUDE_CHANGE (wgStart s i now)
  have hD := goalDistance_eq .ALTITUDE_CHANGE s i now
  have hp := (targetOf_reach .ALTITUDE_CHANGE (wgStart s i now)).2.2.2
  have hgo := (C37_altitude_waypoint s i now)
  have hdt' := pathDt_target .ALTITUDE_CHANGE s i now
  dsimp only at hgo
  have hgo := hgo.2 hn
  rw [ho] at hgo ⊢
  dsimp only at hgo ⊢
  generalize hg : targetOf .ALTITUDE_CHANGE (wgStart s i now) = g at hgo m1 m2 m3 m4 m5 m6 m7 hD hp hdt'
  obtain ⟨s1, s2, s3⟩ := getPathMsg_speed .ALTITUDE_CHANGE g (by rw [m1, a17, hl])
  rw [hp, a2] at s3
  have hfov : fovFactor .ALTITUDE_CHANGE g = 1 := by unfold fovFactor; rw [if_neg (by simp)]
  have hDe : goalDistance .ALTITUDE_CHANGE i = (i.goal.minus i.position).norm := by
    unfold goalDistance
    rw [if_neg (fun h => hn h.2)]
  rw [hDe] at hgo
  rw [hD, hDe, m4, a1, m2, a18, hdt', hfov, mul_one, if_neg (not_lt.mpr hfar)] at s1
  set D := (i.goal.minus i.position).norm with hDdef
  set d := i.goal.z - i.position.z with hd
  have hd0 : 1 / 10 < d := by rw [hd]; linarith
  set T := cycleTime s now with hT
  have hTpos : 0 < T := by
    rw [hT]; unfold cycleTime; split_ifs with h
    · linarith
    · norm_num
  have ha1 : T / (9 / 10 + T) ≤ 1 := by rw [div_le_one (by linarith)]; linarith
  have hrest : 0 ≤ (1 - T / (9 / 10 + T)) * s.speed := mul_nonneg (by linarith) h0
  have hgoto : (getPathMsg .ALTITUDE_CHANGE g).out_goto = ⟨i.position.x, i.position.y, i.goal.z⟩ := by
    rw [(hgo.2.2 hv).1 (fun h => absurd hfar (not_le.mpr h.2)), hstart.1, hstart.2]
  rw [hgoto] at s3
  have hw : (⟨i.position.x, i.position.y, i.goal.z⟩ : V3 ℝ).minus i.position = ⟨0, 0, d⟩ := by
    unfold V3.minus; rw [hd]; simp
  have hwn : (⟨0, 0, d⟩ : V3 ℝ).norm = d := by
    unfold V3.norm V3.dot
    dsimp only
    rw [mul_zero, zero_add, zero_add, Real.sqrt_mul_self (by linarith)]
  rw [hw, hwn, if_pos hd0, V3.smul_normalized (by rw [hwn]; linarith), hwn] at s3
  refine ⟨(getPathMsg .ALTITUDE_CHANGE g).speed, ?_, fun tau ht hle => ?_⟩
  · rw [s3]; unfold V3.plus V3.smul; simp only [mul_zero, add_zero]
    rw [div_mul_cancel₀ _ (by linarith : d ≠ 0)]
  · have hTe : T = now - s.current_time := by rw [hT]; unfold cycleTime; rw [if_pos (by linarith)]
    have haa : tau / (9 / 10 + tau) ≤ T / (9 / 10 + T) := by
      rw [hTe, div_le_div_iff₀ (by linarith) (by linarith)]; nlinarith
    rw [s1]
    refine min_le_min ?_ le_rfl
    have h2 := mul_le_mul haa hc hc0 (by positivity)
    linarith

/-! ## Between the rounds -/

theorem place_step {s s' : NodeSt} {e : NodeEvent} (h : nodeStep Q s e = some s') :
    (s'.sent = s.sent ∧ s'.gen.2.change_altitude_pos = s.gen.2.change_altitude_pos ∧ s'.gen.2.state_changed = s.gen.2.state_changed) ∨ s.sent.length < s'.sent.length := by
  cases e with
  | send t =>
    unfold nodeStep at h
    dsimp only at h
    split_ifs at h
    obtain rfl := Option.some.inj h
    obtain ⟨a1, a2⟩ := sendStep_active s t
    by_cases ha : t - s.last_wp_time ≤ 1 / 2 ∨ t - s.start_time ≤ 5
    · obtain ⟨b1, b2, -⟩ := a1 ha
      refine Or.inr ?_
      rw [b2]; simp
    · obtain ⟨b1, b2, -⟩ := a2 ha
      exact Or.inl ⟨b2, by rw [b1], by rw [b1]⟩
  | planStart f t =>
    unfold nodeStep at h
    dsimp only at h
    split_ifs at h
    rw [Option.map_eq_some_iff] at h
    obtain ⟨pl, -, rfl⟩ := h
    exact Or.inl ⟨rfl, rfl, rfl⟩
  | poll t =>
    unfold nodeStep at h
    dsimp only at h
    rw [Option.bind_eq_some_iff] at h
    obtain ⟨t0, -, h⟩ := h
    split_ifs at h <;> obtain rfl := Option.some.inj h <;> exact Or.inl ⟨rfl, rfl, rfl⟩
  | config c a b t =>
    unfold nodeStep at h
    dsimp only at h
    split_ifs at h
    obtain rfl := Option.some.inj h
    exact Or.inl ⟨rfl, rfl, rfl⟩
  | planEnd t =>
    unfold nodeStep at h
    dsimp only at h
    split_ifs at h
    obtain rfl := Option.some.inj h
    exact Or.inl ⟨rfl, rfl, rfl⟩
  | timer t =>
    unfold nodeStep at h
    dsimp only at h
    split_ifs at h
    obtain rfl := Option.some.inj h
    exact Or.inl ⟨rfl, rfl, rfl⟩
  | _ => obtain rfl := Option.some.inj h; exact Or.inl ⟨rfl, rfl, rfl⟩

theorem place_run (ms : List NodeEvent) : ∀ x y : NodeSt, loopM (nodeStep Q) x ms = some y →
    x.sent.length ≤ y.sent.length ∧ (y.sent.length = x.sent.length → y.gen.2.change_altitude_pos = x.gen.2.change_altitude_pos ∧ y.gen.2.state_changed = x.gen.2.state_changed) := by
  induction ms using List.reverseRecOn with
  | nil => intro x y h; obtain rfl := Option.some.inj h; exact ⟨le_rfl, fun _ => ⟨rfl, rfl⟩⟩
  | append_singleton ms e ih =>
    intro x y h
    obtain ⟨z, z1, z2⟩ := loopM_snoc h
    obtain ⟨i1, i2⟩ := ih x z z1
    rcases place_step z2 with ⟨h1, h2, h3⟩ | h1
    · rw [h1, h2, h3]; exact ⟨i1, i2⟩
    · exact ⟨by omega, fun h => by omega⟩

/-! ## Specification -/

/-- In this round the autopilot lands: in the mode `AUTO.LAND` or at a land item of a mission. -/
def Lands (es : List NodeEvent) (pre : ℕ → List NodeEvent) (A : ℕ → NodeSt) (i : ℕ) : Prop :=
  (newestState (es ++ pre i)).2 = .auto_land ∨ ((newestState (es ++ pre i)).2 = .mission ∧ (A i).goals.is_land = true)

/-- In this round the autopilot takes off: in the mode `AUTO.TAKEOFF` or at a take-off item of a mission. -/
def TakesOff (es : List NodeEvent) (pre : ℕ → List NodeEvent) (A : ℕ → NodeSt) (i : ℕ) : Prop :=
  (newestState (es ++ pre i)).2 = .auto_takeoff ∨ ((newestState (es ++ pre i)).2 = .mission ∧ (A i).goals.is_takeoff = true ∧ (A i).goals.is_land = false)

/-- In this round the vehicle is horizontally faster than half a metre per second. -/
def Fast (u : Uninit) (es : List NodeEvent) (pre : ℕ → List NodeEvent) (i : ℕ) : Prop := 1 / 2 < (newestVelocity u (es ++ pre i)).normXY

/-- In this round the vehicle is too fast to change its altitude; in offboard mode that does not matter. -/
def Brakes (u : Uninit) (es : List NodeEvent) (pre : ℕ → List NodeEvent) (i : ℕ) : Prop := (newestState (es ++ pre i)).2 ≠ .offboard ∧ Fast u es pre i

section
variable {s0 : NodeSt} {n : ℕ} {pre : ℕ → List NodeEvent} {A S : ℕ → NodeSt} {t : ℕ → ℝ} {m : ℕ → SentMsg}

theorem Rounds.place (r : Rounds Q s0 n pre A S t m) (i : ℕ) (hi : i < n) :
    (A (i + 1)).gen.2.change_altitude_pos = (S i).gen.2.change_altitude_pos ∧ (A (i + 1)).gen.2.state_changed = (S i).gen.2.state_changed := by
  obtain ⟨B, hB⟩ := r.next i hi
  have h1 := r.upTo (i + 1) (by omega)
  rw [hB, loopM_append', r.upTo i (by omega)] at h1
  have h2 : loopM (nodeStep Q) (A i) (.send (t i) :: B) = loopM (nodeStep Q) (S i) B := by
    show (nodeStep Q (A i) (.send (t i))).bind _ = _
    rw [r.round i (by omega)]
    rfl
  have h1 : loopM (nodeStep Q) (A i) (.send (t i) :: B) = some (A (i + 1)) := h1
  rw [h2] at h1
  exact (place_run B _ _ h1).2 (by rw [r.only i hi])

/-- The place where the altitude is changed: that of the last round that was too fast, or of the first. -/
theorem place_kept (r : Rounds Q s0 n pre A S t m) (u : Uninit) (l : Launch) (es : List NodeEvent) (h0 : loopM (nodeStep Q) (nodeInit u l) es = some s0)
    (k : ℕ) (hk : (A k).gen.2.state_changed = true) : ∀ i, k ≤ i → i ≤ n → (∀ j, k ≤ j → j ≤ i → (A j).gen.1 = .ALTITUDE_CHANGE) →
      ∀ a, k ≤ a → a ≤ i → (a = k ∨ Brakes u es pre a) → (∀ j, a < j → j ≤ i → ¬ Brakes u es pre j) →
        (S i).gen.2.change_altitude_pos = some (newestPose u (es ++ pre a)).1 ∧
        (¬ Brakes u es pre i → (if (A i).gen.2.state_changed = true then (newestPose u (es ++ pre i)).1 else ((A i).gen.2.change_altitude_pos.getD (newestPose u (es ++ pre i)).1)) =
          (newestPose u (es ++ pre a)).1) := by
  intro i hki
  induction i, hki using Nat.le_induction with
  | base =>
    intro hi hm a h1 h2 h3 h4
    obtain rfl : a = k := by omega
    refine ⟨?_, fun _ => by rw [if_pos hk]⟩
    obtain ⟨c1, -⟩ := r.cycle u l es h0 a hi
    rw [c1, show (A a).gen = (.ALTITUDE_CHANGE, (A a).gen.2) by rw [← hm a le_rfl le_rfl], cycle_place]
    show (if _ then some (newestPose u (es ++ pre a)).1 else _) = _
    by_cases hf : (newestState (es ++ pre a)).2 ≠ .offboard ∧ 1 / 2 < (newestVelocity u (es ++ pre a)).normXY
    · exact if_pos hf
    · exact (if_neg hf).trans (if_pos hk)
  | succ i hki ih =>
    intro hi hm a h1 h2 h3 h4
    have hc : (A (i + 1)).gen.2.state_changed = false := by
      rw [(r.place i (by omega)).2]
      obtain ⟨c1, -⟩ := r.cycle u l es h0 i (by omega)
      rw [c1, cycle_changed _ _ _ rfl (by rw [← c1, ← (r.flags i (by omega)).1]; exact hm (i + 1) (by omega) le_rfl), hm i hki (by omega)]
      rfl
    obtain ⟨c1, -⟩ := r.cycle u l es h0 (i + 1) hi
    have hnew : (S (i + 1)).gen.2.change_altitude_pos = if (newestState (es ++ pre (i + 1))).2 ≠ .offboard ∧ 1 / 2 < (newestVelocity u (es ++ pre (i + 1))).normXY then
        some (newestPose u (es ++ pre (i + 1))).1 else (A (i + 1)).gen.2.change_altitude_pos := by
      rw [c1]
      conv_lhs => rw [show (A (i + 1)).gen = (.ALTITUDE_CHANGE, (A (i + 1)).gen.2) by rw [← hm (i + 1) (by omega) le_rfl]]
      rw [cycle_place, hc]
      rfl
    by_cases ha : a = i + 1
    · subst ha
      have hf : Brakes u es pre (i + 1) := by
        rcases h3 with h | h
        · omega
        · exact h
      exact ⟨hnew.trans (if_pos hf), fun h => absurd hf h⟩
    · obtain ⟨i1, -⟩ := ih (by omega) (fun j h h' => hm j h (by omega)) a h1 (by omega) h3 (fun j h h' => h4 j h (by omega))
      have hA : (A (i + 1)).gen.2.change_altitude_pos = some (newestPose u (es ++ pre a)).1 := by rw [(r.place i (by omega)).1, i1]
      refine ⟨?_, fun _ => ?_⟩
      · exact (hnew.trans (if_neg (h4 (i + 1) (by omega) le_rfl))).trans hA
      · rw [hc, hA]; rfl

theorem TakesOff.notLands {i : ℕ} {es : List NodeEvent} (h : TakesOff es pre A i) : ¬ Lands es pre A i := by
  rcases h with h | h
  · rintro (h' | h')
    · rw [h] at h'; cases h'
    · rw [h] at h'; cases h'.1
  · rintro (h' | h')
    · rw [h.1] at h'; cases h'
    · rw [h.2.2] at h'; cases h'.2

theorem TakesOff.needed {i : ℕ} {es : List NodeEvent} (h : TakesOff es pre A i) (z gz : ℝ) (b : Bool) :
    AltitudeNeeded z gz (newestState (es ++ pre i)).2 (A i).goals.is_takeoff (A i).goals.is_land b := by
  rcases h with h | h
  · exact Or.inr (Or.inl h)
  · exact Or.inr (Or.inr (Or.inl ⟨h.1, h.2.1⟩))

/-- From the third round of a change of altitude on, and earlier unless the vehicle was loitering, the generator changes the altitude. -/
theorem change_mode_of (r : Rounds Q s0 n pre A S t m) (u : Uninit) (l : Launch) (es : List NodeEvent) (h0 : loopM (nodeStep Q) (nodeInit u l) es = some s0)
    (halt : ∀ i ≤ n, AltitudeNeeded (newestPose u (es ++ pre i)).1.z (A i).goals.goal.val.z (newestState (es ++ pre i)).2 (A i).goals.is_takeoff (A i).goals.is_land
      (reachedBefore (A i).gen.2 (newestInput u (es ++ pre i) (A i).goals.goal.val (A i).goals.is_land (A i).goals.is_takeoff (A i).goals.desired_velocity)))
    (hl : (∀ i ≤ n, Lands es pre A i) ∨ ∀ i ≤ n, ¬ Lands es pre A i) (hn : (A 0).gen.1 ≠ .ALTITUDE_CHANGE) :
    ∃ k, 1 ≤ k ∧ k ≤ 2 ∧ (∀ i, k ≤ i → i ≤ n → (A i).gen.1 = .ALTITUDE_CHANGE) ∧ (k ≤ n → (A k).gen.2.state_changed = true) ∧
      ∀ i, k ≤ i → i ≤ n → ((A i).gen.2.auto_land = true ↔ ∀ i ≤ n, Lands es pre A i) := by
  have hnext : ∀ i < n, ((A i).gen.1 = .TRY_PATH ∨ (A i).gen.1 = .ALTITUDE_CHANGE → (A (i + 1)).gen.1 = .ALTITUDE_CHANGE) ∧
      ((A (i + 1)).gen.1 = .TRY_PATH ∨ (A (i + 1)).gen.1 = .ALTITUDE_CHANGE) := by
    intro i hi
    have hA := halt i (by omega)
    have e : (A (i + 1)).gen.1 = (wgCycle (A i).gen (newestInput u (es ++ pre i) (A i).goals.goal.val (A i).goals.is_land (A i).goals.is_takeoff (A i).goals.desired_velocity) (t i)).1 := by
      rw [(r.flags i hi).1, (r.cycle u l es h0 i (by omega)).1]
    have hns : ¬ (newestInput u (es ++ pre i) (A i).goals.goal.val (A i).goals.is_land (A i).goals.is_takeoff (A i).goals.desired_velocity).stay = true := by
      unfold newestInput; simp
    have hA' : AltitudeNeeded (newestInput u (es ++ pre i) (A i).goals.goal.val (A i).goals.is_land (A i).goals.is_takeoff (A i).goals.desired_velocity).position.z
        (newestInput u (es ++ pre i) (A i).goals.goal.val (A i).goals.is_land (A i).goals.is_takeoff (A i).goals.desired_velocity).goal.z
        (newestInput u (es ++ pre i) (A i).goals.goal.val (A i).goals.is_land (A i).goals.is_takeoff (A i).goals.desired_velocity).nav
        (newestInput u (es ++ pre i) (A i).goals.goal.val (A i).goals.is_land (A i).goals.is_takeoff (A i).goals.desired_velocity).is_takeoff
        (newestInput u (es ++ pre i) (A i).goals.goal.val (A i).goals.is_land (A i).goals.is_takeoff (A i).goals.desired_velocity).is_land
        (reachedBefore (A i).gen.2 (newestInput u (es ++ pre i) (A i).goals.goal.val (A i).goals.is_land (A i).goals.is_takeoff (A i).goals.desired_velocity)) := hA
    rw [e, C37_next_state]
    cases hm : (A i).gen.1 with
    | LOITER => dsimp only; rw [if_neg hns]; simp
    | TRY_PATH => dsimp only; rw [if_neg hns, if_pos hA']; simp
    | ALTITUDE_CHANGE => dsimp only; rw [if_neg hns, if_pos hA']; simp
    | DIRECT => dsimp only; rw [if_pos hA']; split_ifs <;> simp
  have hstays : ∀ k i, k ≤ i → i ≤ n → (A k).gen.1 = .ALTITUDE_CHANGE → (A i).gen.1 = .ALTITUDE_CHANGE := by
    intro k i hki
    induction i, hki using Nat.le_induction with
    | base => intro _ h; exact h
    | succ i hki ih => intro hi h; exact (hnext i (by omega)).1 (Or.inr (ih (by omega) h))
  have hchanged : ∀ k, k < n → (A k).gen.1 ≠ .ALTITUDE_CHANGE → (A (k + 1)).gen.1 = .ALTITUDE_CHANGE → (A (k + 1)).gen.2.state_changed = true := by
    intro k hk h1 h2
    obtain ⟨c1, -⟩ := r.cycle u l es h0 k (by omega)
    rw [(r.place k hk).2, c1, cycle_changed _ _ _ rfl (by rw [← c1, ← (r.flags k hk).1]; exact h2)]
    exact decide_eq_true h1
  have hknows : ∀ i, 1 ≤ i → i ≤ n → (A i).gen.1 = .ALTITUDE_CHANGE → ((A i).gen.2.auto_land = true ↔ ∀ i ≤ n, Lands es pre A i) := by
    intro i h1 hi hm
    obtain ⟨j, rfl⟩ : ∃ j, i = j + 1 := ⟨i - 1, by omega⟩
    obtain ⟨c1, -⟩ := r.cycle u l es h0 j (by omega)
    rw [(r.flags j (by omega)).2.2.1, c1, enter_knows _ _ _ rfl (by rw [← c1, ← (r.flags j (by omega)).1]; exact hm)]
    show Lands es pre A j ↔ _
    rcases hl with h | h
    · exact ⟨fun _ => h, fun _ => h j (by omega)⟩
    · have hno : ¬ Lands es pre A j := h j (by omega)
      exact ⟨fun h' => absurd h' hno, fun h' => absurd (h' j (by omega)) hno⟩
  by_cases hn1 : 1 ≤ n
  swap
  · exact ⟨2, by omega, le_rfl, fun i h1 h2 => by omega, fun h => by omega, fun i h1 h2 => by omega⟩
  by_cases h1 : (A 1).gen.1 = .ALTITUDE_CHANGE
  · exact ⟨1, le_rfl, by omega, fun i hi hin => hstays 1 i hi hin h1, fun _ => hchanged 0 (by omega) hn h1, fun i hi hin => hknows i hi hin (hstays 1 i hi hin h1)⟩
  · have ht : (A 1).gen.1 = .TRY_PATH := (hnext 0 (by omega)).2.resolve_right h1
    by_cases hn2 : 2 ≤ n
    · have h2 : (A 2).gen.1 = .ALTITUDE_CHANGE := (hnext 1 (by omega)).1 (Or.inl ht)
      exact ⟨2, by omega, le_rfl, fun i hi hin => hstays 2 i hi hin h2, fun _ => hchanged 1 (by omega) h1 h2, fun i hi hin => hknows i (by omega) hin (hstays 2 i hi hin h2)⟩
    · exact ⟨2, by omega, le_rfl, fun i h1 h2 => by omega, fun h => by omega, fun i h1 h2 => by omega⟩

/-- From the third round of a landing or a take-off on, and earlier unless the vehicle was loitering, the generator changes the altitude. -/
theorem change_mode (r : Rounds Q s0 n pre A S t m) (u : Uninit) (l : Launch) (es : List NodeEvent) (h0 : loopM (nodeStep Q) (nodeInit u l) es = some s0)
    (hl : (∀ i ≤ n, Lands es pre A i) ∨ ∀ i ≤ n, TakesOff es pre A i) (hn : (A 0).gen.1 ≠ .ALTITUDE_CHANGE) :
    ∃ k, 1 ≤ k ∧ k ≤ 2 ∧ (∀ i, k ≤ i → i ≤ n → (A i).gen.1 = .ALTITUDE_CHANGE) ∧ (k ≤ n → (A k).gen.2.state_changed = true) ∧
      ∀ i, k ≤ i → i ≤ n → ((A i).gen.2.auto_land = true ↔ ∀ i ≤ n, Lands es pre A i) := by
  have halt : ∀ i ≤ n, AltitudeNeeded (newestPose u (es ++ pre i)).1.z (A i).goals.goal.val.z (newestState (es ++ pre i)).2 (A i).goals.is_takeoff (A i).goals.is_land
      (reachedBefore (A i).gen.2 (newestInput u (es ++ pre i) (A i).goals.goal.val (A i).goals.is_land (A i).goals.is_takeoff (A i).goals.desired_velocity)) := by
    intro i hi
    rcases hl with h | h
    · rcases h i hi with h | h
      · exact Or.inr (Or.inr (Or.inr (Or.inr (Or.inl h))))
      · exact Or.inr (Or.inr (Or.inr (Or.inr (Or.inr h))))
    · rcases h i hi with h | h
      · exact Or.inr (Or.inl h)
      · exact Or.inr (Or.inr (Or.inl ⟨h.1, h.2.1⟩))
  exact change_mode_of r u l es h0 halt (hl.imp id fun h i hi => (h i hi).notLands) hn

theorem Lands.nav {i : ℕ} {es : List NodeEvent} (h : Lands es pre A i) : (newestState (es ++ pre i)).2 ≠ .offboard := by
  rcases h with h | h
  · rw [h]; intro h; cases h
  · rw [h.1]; intro h; cases h

theorem TakesOff.nav {i : ℕ} {es : List NodeEvent} (h : TakesOff es pre A i) : (newestState (es ++ pre i)).2 ≠ .offboard := by
  rcases h with h | h
  · rw [h]; intro h; cases h
  · rw [h.1]; intro h; cases h

/-- **C115, the descent.** While the autopilot lands, from the second or third setpoint `k` on: while the vehicle is horizontally faster than 0.5 m/s the setpoint is its own position, to be
held without horizontal velocity; otherwise it is straight above or below the place where the vehicle was in the last round that was too fast (in round `k`, if there was none since), at
the height of the goal, with the velocity the autopilot wants - whatever plans, obstacles, poses and goals arrive. -/
theorem C115_descent (r : Rounds Q s0 n pre A S t m) (u : Uninit) (l : Launch) (es : List NodeEvent) (h0 : loopM (nodeStep Q) (nodeInit u l) es = some s0)
    (hl : ∀ i ≤ n, Lands es pre A i) (hn : (A 0).gen.1 ≠ .ALTITUDE_CHANGE) :
    let p := fun i => (newestPose u (es ++ pre i)).1
    ∃ k, 1 ≤ k ∧ k ≤ 2 ∧ ∀ i, k ≤ i → i ≤ n →
      (Fast u es pre i → (m i).position = (p i).fin ∧ (m i).velocity = ⟨some 0, some 0, none⟩) ∧
      (¬ Fast u es pre i → ∀ a, k ≤ a → a ≤ i → (a = k ∨ Fast u es pre a) → (∀ j, a < j → j ≤ i → ¬ Fast u es pre j) →
        (m i).position = V3.fin ⟨(p a).x, (p a).y, (A i).goals.goal.val.z⟩ ∧ (m i).velocity = (A i).goals.desired_velocity) := by
  intro p
  obtain ⟨k, k1, k2, k3, k4, k5⟩ := change_mode r u l es h0 (Or.inl hl) hn
  refine ⟨k, k1, k2, fun i hki hi => ?_⟩
  obtain ⟨-, hm⟩ := r.cycle u l es h0 i hi
  have hal := (k5 i hki hi).2 hl
  have hnav := (hl i hi).nav
  rw [show (A i).gen = (.ALTITUDE_CHANGE, (A i).gen.2) by rw [← k3 i hki hi]] at hm
  have hvel := C37_linear_velocity (.ALTITUDE_CHANGE, (A i).gen.2) (newestInput u (es ++ pre i) (A i).goals.goal.val (A i).goals.is_land (A i).goals.is_takeoff (A i).goals.desired_velocity) (t i)
  dsimp only at hvel
  obtain ⟨v1, v2⟩ := hvel.2 rfl hnav
  constructor
  · intro hf
    rw [hm]
    exact ⟨brake_cycle _ _ _ hal hnav hf, v1 hf⟩
  · intro hf a h1 h2 h3 h4
    have hp := (place_kept r u l es h0 k (k4 (by omega)) i hki hi (fun j h h' => k3 j h (by omega)) a h1 h2 (h3.imp id (fun h => ⟨(hl a (by omega)).nav, h⟩)) (fun j h h' hb => h4 j h h' hb.2)).2 (fun hb => hf hb.2)
    have hset := C37_landing_setpoint (A i).gen.2 (newestInput u (es ++ pre i) (A i).goals.goal.val (A i).goals.is_land (A i).goals.is_takeoff (A i).goals.desired_velocity) (t i) hal hnav (not_lt.mp hf)
    dsimp only at hset
    rw [hm]
    refine ⟨?_, v2 (not_lt.mp hf)⟩
    dsimp only
    rw [hset]
    change V3.fin ⟨(if (A i).gen.2.state_changed = true then (newestPose u (es ++ pre i)).1 else ((A i).gen.2.change_altitude_pos.getD (newestPose u (es ++ pre i)).1)).x,
      (if (A i).gen.2.state_changed = true then (newestPose u (es ++ pre i)).1 else ((A i).gen.2.change_altitude_pos.getD (newestPose u (es ++ pre i)).1)).y, _⟩ = _
    rw [hp]
    rfl

/-- **C115, coming down.** While the autopilot lands with a goal at the height `h` and the vehicle, horizontally slow, flies at least the part `part` of the way to each published position, it comes as
close as one likes to the point at that height above or below one place, where it was when the second or third setpoint was computed. -/
theorem C115_comes_down (r : Rounds Q s0 n pre A S t m) (u : Uninit) (l : Launch) (es : List NodeEvent) (h0 : loopM (nodeStep Q) (nodeInit u l) es = some s0)
    (hl : ∀ i ≤ n, Lands es pre A i) (hn : (A 0).gen.1 ≠ .ALTITUDE_CHANGE) (h : ℝ) (hh : ∀ i ≤ n, (A i).goals.goal.val.z = h)
    (hslow : ∀ i, 1 ≤ i → i ≤ n → ¬ Fast u es pre i) (part : ℝ) (hpart : 0 ≤ part) (f : ℕ → ℝ) (fl : FliesTowards u es n pre m f) (hf : ∀ i, 2 ≤ i → i < n → part ≤ f i) :
    let p := fun i => (newestPose u (es ++ pre i)).1
    ∃ k, 1 ≤ k ∧ k ≤ 2 ∧ ∀ i, 2 ≤ i → i ≤ n → (m i).position = V3.fin ⟨(p k).x, (p k).y, h⟩ ∧
      ((⟨(p k).x, (p k).y, h⟩ : V3 ℝ).minus (p i)).norm ≤ (1 - part) ^ (i - 2) * ((⟨(p k).x, (p k).y, h⟩ : V3 ℝ).minus (p 2)).norm := by
  intro p
  obtain ⟨k, k1, k2, k3⟩ := C115_descent r u l es h0 hl hn
  have hpos : ∀ i, 2 ≤ i → i ≤ n → (m i).position = V3.fin ⟨(p k).x, (p k).y, h⟩ := by
    intro i h2 hi
    obtain ⟨e, -⟩ := (k3 i (by omega) hi).2 (hslow i (by omega) hi) k le_rfl (by omega) (Or.inl rfl) (fun j hj hji => hslow j (by omega) (by omega))
    rw [hh i hi] at e
    exact e
  refine ⟨k, k1, k2, fun i h2 hi => ⟨hpos i h2 hi, ?_⟩⟩
  set q : V3 ℝ := ⟨(p k).x, (p k).y, h⟩ with hq
  induction i, h2 using Nat.le_induction with
  | base => simp
  | succ i h2 ih =>
    have hi' := ih (by omega)
    obtain ⟨q', q1, q2⟩ := fl.moves i h2 (by omega)
    rw [hpos i h2 (by omega)] at q1
    obtain rfl := fin_inj q1
    obtain ⟨f0, f1⟩ := fl.part i h2 (by omega)
    have hstep : q.minus (p (i + 1)) = V3.smul (1 - f i) (q.minus (p i)) := by
      show q.minus (newestPose u (es ++ pre (i + 1))).1 = _
      rw [q2]
      show q.minus ((p i).plus (V3.smul (f i) (q.minus (p i)))) = _
      unfold V3.minus V3.plus V3.smul
      simp only [V3.mk.injEq]
      refine ⟨by ring, by ring, by ring⟩
    have hpf := hf i h2 (by omega)
    rw [hstep, V3.norm_smul, abs_of_nonneg (by linarith), show i + 1 - 2 = (i - 2) + 1 by omega, pow_succ]
    have hnn : 0 ≤ (q.minus (p i)).norm := V3.norm_nonneg _
    calc (1 - f i) * (q.minus (p i)).norm ≤ (1 - part) * (q.minus (p i)).norm := mul_le_mul_of_nonneg_right (by linarith) hnn
      _ ≤ (1 - part) * ((1 - part) ^ (i - 2) * (q.minus (p 2)).norm) := mul_le_mul_of_nonneg_left hi' (by linarith)
      _ = (1 - part) ^ (i - 2) * (1 - part) * (q.minus (p 2)).norm := by ring

/-- **C115 (violated): a landing that begins during another change of altitude.** Expected: the vehicle comes down where it is when the landing begins. But if it was changing its altitude
already (a climb in offboard mode, a take-off item), the setpoints of the landing are below the place where *that* began, in round `k` - however far away the vehicle is by now (in offboard mode the
speed of the vehicle is not looked at). -/
theorem C115_other_place_violated (r : Rounds Q s0 n pre A S t m) (u : Uninit) (l : Launch) (es : List NodeEvent) (h0 : loopM (nodeStep Q) (nodeInit u l) es = some s0)
    (k i : ℕ) (hki : k + 1 ≤ i) (hi : i + 1 ≤ n) (hnew : (A k).gen.1 ≠ .ALTITUDE_CHANGE) (hall : ∀ j, k + 1 ≤ j → j ≤ i + 1 → (A j).gen.1 = .ALTITUDE_CHANGE)
    (hl : Lands es pre A i) (hl' : Lands es pre A (i + 1)) (hslow : ∀ j, k + 1 < j → j ≤ i + 1 → ¬ Brakes u es pre j) (hslow' : ¬ Fast u es pre (i + 1)) :
    let p := fun i => (newestPose u (es ++ pre i)).1
    (m (i + 1)).position = V3.fin ⟨(p (k + 1)).x, (p (k + 1)).y, (A (i + 1)).goals.goal.val.z⟩ := by
  intro p
  have hchg : (A (k + 1)).gen.2.state_changed = true := by
    obtain ⟨c1, -⟩ := r.cycle u l es h0 k (by omega)
    rw [(r.place k (by omega)).2, c1, cycle_changed _ _ _ rfl (by rw [← c1, ← (r.flags k (by omega)).1]; exact hall (k + 1) le_rfl (by omega))]
    exact decide_eq_true hnew
  have hal : (A (i + 1)).gen.2.auto_land = true := by
    obtain ⟨c1, -⟩ := r.cycle u l es h0 i (by omega)
    rw [(r.flags i (by omega)).2.2.1, c1, enter_knows _ _ _ rfl (by rw [← c1, ← (r.flags i (by omega)).1]; exact hall (i + 1) (by omega) le_rfl)]
    exact hl
  obtain ⟨-, hm⟩ := r.cycle u l es h0 (i + 1) hi
  rw [show (A (i + 1)).gen = (.ALTITUDE_CHANGE, (A (i + 1)).gen.2) by rw [← hall (i + 1) (by omega) le_rfl]] at hm
  have hp := (place_kept r u l es h0 (k + 1) hchg (i + 1) (by omega) hi hall (k + 1) le_rfl (by omega) (Or.inl rfl) hslow).2 (fun h => hslow' h.2)
  have hset := C37_landing_setpoint (A (i + 1)).gen.2 (newestInput u (es ++ pre (i + 1)) (A (i + 1)).goals.goal.val (A (i + 1)).goals.is_land (A (i + 1)).goals.is_takeoff
    (A (i + 1)).goals.desired_velocity) (t (i + 1)) hal hl'.nav (not_lt.mp hslow')
  dsimp only at hset
  rw [hm]
  dsimp only
  rw [hset]
  change V3.fin ⟨(if (A (i + 1)).gen.2.state_changed = true then (newestPose u (es ++ pre (i + 1))).1 else ((A (i + 1)).gen.2.change_altitude_pos.getD (newestPose u (es ++ pre (i + 1))).1)).x,
    (if (A (i + 1)).gen.2.state_changed = true then (newestPose u (es ++ pre (i + 1))).1 else ((A (i + 1)).gen.2.change_altitude_pos.getD (newestPose u (es ++ pre (i + 1))).1)).y, _⟩ = _
  rw [hp]
  rfl

/-! ## Taking off -/

/-- What is known about a round of a change of altitude that is no landing. -/
theorem change_round (r : Rounds Q s0 n pre A S t m) (u : Uninit) (l : Launch) (es : List NodeEvent) (h0 : loopM (nodeStep Q) (nodeInit u l) es = some s0)
    (halt : ∀ i ≤ n, AltitudeNeeded (newestPose u (es ++ pre i)).1.z (A i).goals.goal.val.z (newestState (es ++ pre i)).2 (A i).goals.is_takeoff (A i).goals.is_land
      (reachedBefore (A i).gen.2 (newestInput u (es ++ pre i) (A i).goals.goal.val (A i).goals.is_land (A i).goals.is_takeoff (A i).goals.desired_velocity)))
    (hno : ∀ i ≤ n, ¬ Lands es pre A i) (hn : (A 0).gen.1 ≠ .ALTITUDE_CHANGE)
    (V c : ℝ) (hV : 2 ≤ V) (hc0 : 0 ≤ c) (hc2 : c ≤ 2)
    (hu : ∀ x, u.cruise_velocity = some x → c ≤ x ∧ x ≤ V) (hwithin : PlansWithin V l (es ++ pre n)) (hfrom : PlansFrom c l (es ++ pre n))
    (hsmooth : ∀ i ≤ n, (newestSmoothing (es ++ pre i)).1 < 1 / 100) (hslow : ∀ i, 1 ≤ i → i ≤ n → ¬ Fast u es pre i) :
    ∃ k, 1 ≤ k ∧ k ≤ 2 ∧ ∀ i, 2 ≤ i → i ≤ n → (A i).gen.1 = .ALTITUDE_CHANGE ∧ (A i).gen.2.auto_land = false ∧ 0 ≤ (A i).gen.2.speed ∧ c ≤ (A i).gen.2.planner.cruise_velocity.getD 2 ∧
      (A i).gen.2.current_time = t (i - 1) ∧
      (if (A i).gen.2.state_changed = true then (newestPose u (es ++ pre i)).1 else ((A i).gen.2.change_altitude_pos.getD (newestPose u (es ++ pre i)).1)) = (newestPose u (es ++ pre k)).1 ∧
      (m i).position = V3.fin (wgCycle (.ALTITUDE_CHANGE, (A i).gen.2) (newestInput u (es ++ pre i) (A i).goals.goal.val (A i).goals.is_land (A i).goals.is_takeoff
        (A i).goals.desired_velocity) (t i)).2.out_adapted := by
  obtain ⟨k, k1, k2, k3, k4, k5⟩ := change_mode_of r u l es h0 halt (Or.inr hno) hn
  refine ⟨k, k1, k2, fun i h2 hi => ?_⟩
  have hland : (A i).gen.2.auto_land = false := by
    rw [← Bool.not_eq_true, k5 i (by omega) hi]
    intro h
    exact hno 0 (by omega) (h 0 (by omega))
  obtain ⟨⟨R, hR⟩, -⟩ := r.prefix (n - i) i (by omega)
  have hwi : PlansWithin V l (es ++ pre i) := fun a f x b e => hwithin a f x (b ++ R) (by rw [hR, ← List.append_assoc, e]; simp)
  have hfm : PlansFrom c l (es ++ pre i) := fun a f x b e => hfrom a f x (b ++ R) (by rw [hR, ← List.append_assoc, e]; simp)
  have hu' : ∀ x, u.cruise_velocity = some x → 0 ≤ x ∧ x ≤ V := fun x hx => ⟨hc0.trans (hu x hx).1, (hu x hx).2⟩
  have hrun : loopM (nodeStep Q) (nodeInit u l) (es ++ pre i) = some (A i) := by rw [loopM_append', h0]; exact r.upTo i hi
  refine ⟨k3 i (by omega) hi, hland, (C92_speed_partial V hV u l _ _ hrun hu' hwi).1, gen_cruise_from c u l _ _ hrun hc2 V (fun x hx => (hu x hx).1) hwi hfm, ?_, ?_, ?_⟩
  · obtain ⟨j, rfl⟩ : ∃ j, i = j + 1 := ⟨i - 1, by omega⟩
    rw [(r.time j (by omega)).1, (r.cycle u l es h0 j (by omega)).1]
    obtain ⟨al, re, sc, ho⟩ := wgCycle_out (A j).gen (newestInput u (es ++ pre j) (A j).goals.goal.val (A j).goals.is_land (A j).goals.is_takeoff (A j).goals.desired_velocity) (t j)
    rw [ho]
    dsimp only
    rw [(getPathMsg_frame _ _).current_time]
    cases (A j).gen.1
    · rfl
    · exact (altTarget_frame _).2.2.2.2.2.2.2.2.2.2.2.2.1
    · rfl
    · rfl
  · exact (place_kept r u l es h0 k (k4 (by omega)) i (by omega) hi (fun j h h' => k3 j h (by omega)) k le_rfl (by omega) (Or.inl rfl)
      (fun j h h' hb => hslow j (by omega) (by omega) hb.2)).2 (fun hb => hslow i (by omega) hi hb.2)
  · obtain ⟨-, hm⟩ := r.cycle u l es h0 i hi
    rw [show (A i).gen = (.ALTITUDE_CHANGE, (A i).gen.2) by rw [← k3 i (by omega) hi]] at hm
    rw [hm]
    dsimp only
    generalize newestInput u (es ++ pre i) (A i).goals.goal.val (A i).goals.is_land (A i).goals.is_takeoff (A i).goals.desired_velocity = I
    have ks := (nodeKnows u l _ _ hrun).smoothing
    have hsm := hsmooth i hi
    rw [← ks] at hsm
    obtain ⟨al, re, sc, ho⟩ := wgCycle_out (.ALTITUDE_CHANGE, (A i).gen.2) I (t i)
    obtain ⟨m1, -⟩ := targetOf_more .ALTITUDE_CHANGE (wgStart (A i).gen.2 I (t i))
    obtain ⟨-, -, -, -, -, -, -, -, -, -, -, -, -, -, -, -, a17, -, -, -, a21, a22, -⟩ := wgStart_spec (A i).gen.2 I (t i)
    obtain ⟨-, -, m5, m6, -⟩ := targetOf_filter .ALTITUDE_CHANGE (wgStart (A i).gen.2 I (t i))
    rw [ho]
    dsimp only
    exact C39_disabled _ _ (by rw [m1, a17, hland]) (Or.inl (by rw [m5, a21]; exact hsm))

/-- What is known about a round of a take-off. -/
theorem takeoff_round (r : Rounds Q s0 n pre A S t m) (u : Uninit) (l : Launch) (es : List NodeEvent) (h0 : loopM (nodeStep Q) (nodeInit u l) es = some s0)
    (hto : ∀ i ≤ n, TakesOff es pre A i) (hn : (A 0).gen.1 ≠ .ALTITUDE_CHANGE)
    (V c : ℝ) (hV : 2 ≤ V) (hc0 : 0 ≤ c) (hc2 : c ≤ 2)
    (hu : ∀ x, u.cruise_velocity = some x → c ≤ x ∧ x ≤ V) (hwithin : PlansWithin V l (es ++ pre n)) (hfrom : PlansFrom c l (es ++ pre n))
    (hsmooth : ∀ i ≤ n, (newestSmoothing (es ++ pre i)).1 < 1 / 100) (hslow : ∀ i, 1 ≤ i → i ≤ n → ¬ Fast u es pre i) :
    ∃ k, 1 ≤ k ∧ k ≤ 2 ∧ ∀ i, 2 ≤ i → i ≤ n → (A i).gen.1 = .ALTITUDE_CHANGE ∧ (A i).gen.2.auto_land = false ∧ 0 ≤ (A i).gen.2.speed ∧ c ≤ (A i).gen.2.planner.cruise_velocity.getD 2 ∧
      (A i).gen.2.current_time = t (i - 1) ∧
      (if (A i).gen.2.state_changed = true then (newestPose u (es ++ pre i)).1 else ((A i).gen.2.change_altitude_pos.getD (newestPose u (es ++ pre i)).1)) = (newestPose u (es ++ pre k)).1 ∧
      (m i).position = V3.fin (wgCycle (.ALTITUDE_CHANGE, (A i).gen.2) (newestInput u (es ++ pre i) (A i).goals.goal.val (A i).goals.is_land (A i).goals.is_takeoff
        (A i).goals.desired_velocity) (t i)).2.out_adapted :=
  change_round r u l es h0 (fun i hi => (hto i hi).needed _ _ _) (fun i hi => (hto i hi).notLands) hn V c hV hc0 hc2 hu hwithin hfrom hsmooth hslow

/-- **C115, taking off.** The autopilot takes off with a goal straight above the vehicle, which is horizontally slow and flies at least the part `part` of the way to each published position; setpoints are at
least `tau` apart and no smoothing is configured. From the third setpoint on, as long as the vehicle is below the goal, every setpoint is straight above the vehicle and not above the goal, each round
brings it up by at least an amount known in advance, and every distance `eps` from the goal is reached, after a number of rounds known in advance. -/
theorem C115_takes_off_partial (r : Rounds Q s0 n pre A S t m) (u : Uninit) (l : Launch) (es : List NodeEvent) (h0 : loopM (nodeStep Q) (nodeInit u l) es = some s0)
    (hto : ∀ i ≤ n, TakesOff es pre A i) (hn : (A 0).gen.1 ≠ .ALTITUDE_CHANGE)
    (V c tau part : ℝ) (hV : 2 ≤ V) (hc0 : 0 ≤ c) (hc2 : c ≤ 2) (htau : 0 < tau) (hpart : 0 ≤ part)
    (hu : ∀ x, u.cruise_velocity = some x → c ≤ x ∧ x ≤ V) (hwithin : PlansWithin V l (es ++ pre n)) (hfrom : PlansFrom c l (es ++ pre n))
    (hsmooth : ∀ i ≤ n, (newestSmoothing (es ++ pre i)).1 < 1 / 100) (hslow : ∀ i, 1 ≤ i → i ≤ n → ¬ Fast u es pre i) (hpace : ∀ i < n, tau ≤ t (i + 1) - t i)
    (f : ℕ → ℝ) (fl : FliesTowards u es n pre m f) (hf : ∀ i, 2 ≤ i → i < n → part ≤ f i)
    (g : V3 ℝ) (hg : ∀ i ≤ n, (A i).goals.goal.val = g) (hpad : ∀ i, 1 ≤ i → i ≤ 2 → (newestPose u (es ++ pre i)).1.x = g.x ∧ (newestPose u (es ++ pre i)).1.y = g.y) :
    let p := fun i => (newestPose u (es ++ pre i)).1
    let a := tau / (9 / 10 + tau)
    (∀ i, 2 ≤ i → i ≤ n → (∀ j ≤ i, (p j).z < g.z) →
      (p i).x = g.x ∧ (p i).y = g.y ∧ ∃ k, 0 ≤ k ∧ (p i).z + k ≤ g.z ∧ (m i).position = V3.fin ⟨(p i).x, (p i).y, (p i).z + k⟩ ∧
        (i < n → g.z - (p (i + 1)).z ≤ g.z - (p i).z - part * advance a c (g.z - (p i).z) ∧ (p (i + 1)).z ≤ g.z)) ∧
    (∀ eps, 0 < eps → eps ≤ 1 / 10 → 2 ≤ n → g.z - (p 2).z ≤ ((n : ℝ) - 2) * (part * (a * min c (eps ^ 2))) → ∃ i ≤ n, g.z - eps ≤ (p i).z) := by
  intro p a
  obtain ⟨k, k1, k2, kr⟩ := takeoff_round r u l es h0 hto hn V c hV hc0 hc2 hu hwithin hfrom hsmooth hslow
  have hround : ∀ i, 2 ≤ i → i ≤ n → (p i).x = g.x → (p i).y = g.y → (p i).z < g.z → ∃ w, 0 ≤ w ∧ w ≤ g.z - (p i).z ∧ (m i).position = V3.fin ⟨(p i).x, (p i).y, (p i).z + w⟩ ∧
      advance a c (g.z - (p i).z) ≤ w := by
    intro i h2 hi hx hy hz
    obtain ⟨-, b2, b3, b4, b5, b6, b7⟩ := kr i h2 hi
    have hq := hpad k k1 k2
    obtain ⟨w, w0, w1, w2, w3⟩ := takeoff_cycle (A i).gen.2 (newestInput u (es ++ pre i) (A i).goals.goal.val (A i).goals.is_land (A i).goals.is_takeoff (A i).goals.desired_velocity) (t i) b2 b3
      (hto i hi).nav (not_lt.mp (hslow i (by omega) hi)) (by
        dsimp only
        change (if (A i).gen.2.state_changed = true then (newestPose u (es ++ pre i)).1 else ((A i).gen.2.change_altitude_pos.getD (newestPose u (es ++ pre i)).1)).x = (p i).x ∧
          (if (A i).gen.2.state_changed = true then (newestPose u (es ++ pre i)).1 else ((A i).gen.2.change_altitude_pos.getD (newestPose u (es ++ pre i)).1)).y = (p i).y
        rw [b6]
        exact ⟨hq.1.trans hx.symm, hq.2.trans hy.symm⟩)
      (by show (A i).goals.goal.val.x = (p i).x; rw [hg i hi, hx]) (by show (A i).goals.goal.val.y = (p i).y; rw [hg i hi, hy])
      (by show (p i).z < (A i).goals.goal.val.z; rw [hg i hi]; exact hz) c hc0 b4
    have hgz : (A i).goals.goal.val.z = g.z := by rw [hg i hi]
    have w1 : w ≤ (A i).goals.goal.val.z - (p i).z := w1
    have w3 : ∀ tau, 0 < tau → tau ≤ t i - (A i).gen.2.current_time → advance (tau / (9 / 10 + tau)) c ((A i).goals.goal.val.z - (p i).z) ≤ w := w3
    rw [hgz] at w1 w3
    refine ⟨w, w0, w1, ?_, w3 tau htau ?_⟩
    · rw [b7, w2]; rfl
    · rw [b5]
      have := hpace (i - 1) (by omega)
      rwa [show i - 1 + 1 = i by omega] at this
  have hmove : ∀ i, 2 ≤ i → i < n → ∀ w, (m i).position = V3.fin ⟨(p i).x, (p i).y, (p i).z + w⟩ →
      (p (i + 1)).x = (p i).x ∧ (p (i + 1)).y = (p i).y ∧ (p (i + 1)).z = (p i).z + f i * w := by
    intro i h2 hi w hw
    obtain ⟨q, q1, q2⟩ := fl.moves i h2 hi
    rw [hw] at q1
    obtain rfl := fin_inj q1
    have e : p (i + 1) = (p i).plus (V3.smul (f i) ((⟨(p i).x, (p i).y, (p i).z + w⟩ : V3 ℝ).minus (p i))) := q2
    rw [e]
    unfold V3.plus V3.smul V3.minus
    dsimp only
    refine ⟨by ring, by ring, by ring⟩
  have hxy : ∀ i, 2 ≤ i → i ≤ n → (∀ j < i, (p j).z < g.z) → (p i).x = g.x ∧ (p i).y = g.y := by
    intro i h2
    induction i, h2 using Nat.le_induction with
    | base => intro _ _; exact hpad 2 (by omega) le_rfl
    | succ i h2 ih =>
      intro hi hlow
      obtain ⟨x1, x2⟩ := ih (by omega) (fun j hj => hlow j (by omega))
      obtain ⟨w, -, -, w3, -⟩ := hround i h2 (by omega) x1 x2 (hlow i (by omega))
      obtain ⟨e1, e2, -⟩ := hmove i h2 (by omega) w w3
      exact ⟨e1.trans x1, e2.trans x2⟩
  have hstep : ∀ i, 2 ≤ i → i ≤ n → (∀ j ≤ i, (p j).z < g.z) → ∃ w, 0 ≤ w ∧ (p i).z + w ≤ g.z ∧ (m i).position = V3.fin ⟨(p i).x, (p i).y, (p i).z + w⟩ ∧
      (i < n → g.z - (p (i + 1)).z ≤ g.z - (p i).z - part * advance a c (g.z - (p i).z) ∧ (p (i + 1)).z ≤ g.z) := by
    intro i h2 hi hlow
    obtain ⟨x1, x2⟩ := hxy i h2 hi (fun j hj => hlow j hj.le)
    obtain ⟨w, w0, w1, w2, w3⟩ := hround i h2 hi x1 x2 (hlow i le_rfl)
    refine ⟨w, w0, by linarith, w2, fun hin => ?_⟩
    obtain ⟨-, -, hz⟩ := hmove i h2 hin w w2
    obtain ⟨f0, f1⟩ := fl.part i h2 hin
    constructor
    · rw [hz]
      have h1 : part * advance a c (g.z - (p i).z) ≤ part * w := mul_le_mul_of_nonneg_left w3 hpart
      have h2 : part * w ≤ f i * w := mul_le_mul_of_nonneg_right (hf i h2 hin) w0
      linarith
    · rw [hz]
      have : f i * w ≤ w := by nlinarith
      linarith
  refine ⟨fun i h2 hi hlow => ?_, ?_⟩
  · obtain ⟨x1, x2⟩ := hxy i h2 hi (fun j hj => hlow j hj.le)
    exact ⟨x1, x2, hstep i h2 hi hlow⟩
  · intro eps he0 he1 hn hlen
    by_contra hnone
    push Not at hnone
    have hall : ∀ j ≤ n, (p j).z < g.z := fun j hj => by have := hnone j hj; linarith
    have ha0 : 0 < a := by show 0 < tau / (9 / 10 + tau); positivity
    have ha1 : a ≤ 1 := by show tau / (9 / 10 + tau) ≤ 1; rw [div_le_one (by linarith)]; linarith
    have hmin0 : 0 ≤ min c (eps ^ 2) := le_min hc0 (sq_nonneg _)
    have hmine : min c (eps ^ 2) ≤ eps ^ 2 := min_le_right _ _
    have hadv : ∀ x, eps < x → a * min c (eps ^ 2) ≤ advance a c x := by
      intro x hx
      unfold advance
      split_ifs with h1 h2
      · refine le_min (mul_le_mul_of_nonneg_left (min_le_left _ _) ha0.le) ?_
        have : a * min c (eps ^ 2) ≤ 1 * eps ^ 2 := mul_le_mul ha1 hmine hmin0 zero_le_one
        nlinarith
      · refine mul_le_mul_of_nonneg_left ?_ ha0.le
        nlinarith
      · refine mul_le_mul_of_nonneg_left ?_ ha0.le
        nlinarith
    have hsum : ∀ i, 2 ≤ i → i ≤ n → g.z - (p i).z ≤ g.z - (p 2).z - ((i : ℝ) - 2) * (part * (a * min c (eps ^ 2))) := by
      intro i h2
      induction i, h2 using Nat.le_induction with
      | base => intro _; push_cast; linarith
      | succ i h2 ih =>
        intro hi
        have h1 := ih (by omega)
        obtain ⟨w, -, -, -, k4⟩ := hstep i h2 (by omega) (fun j hj => hall j (by omega))
        obtain ⟨k5, -⟩ := k4 (by omega)
        have h3 := mul_le_mul_of_nonneg_left (hadv (g.z - (p i).z) (by have := hnone i (by omega); linarith)) hpart
        push_cast
        linarith
    have h5 := hsum n hn le_rfl
    have h6 := hnone n le_rfl
    linarith

/-- **C115 (violated): taking off beside the goal.** Expected: the setpoints of a take-off are not above the goal. But if the goal is not straight above the place where the take-off began and at
least one metre away, a vehicle above that place, lower than the goal by more than 10 cm, is sent up by its speed - which is limited by the distance to the goal, not by the missing height: by at least
`min (a * c) distance`, so beyond the altitude of the goal when less than that is missing. -/
theorem C115_overshoot_violated (r : Rounds Q s0 n pre A S t m) (u : Uninit) (l : Launch) (es : List NodeEvent) (h0 : loopM (nodeStep Q) (nodeInit u l) es = some s0)
    (hto : ∀ i ≤ n, TakesOff es pre A i) (hn : (A 0).gen.1 ≠ .ALTITUDE_CHANGE)
    (V c tau : ℝ) (hV : 2 ≤ V) (hc0 : 0 ≤ c) (hc2 : c ≤ 2) (htau : 0 < tau)
    (hu : ∀ x, u.cruise_velocity = some x → c ≤ x ∧ x ≤ V) (hwithin : PlansWithin V l (es ++ pre n)) (hfrom : PlansFrom c l (es ++ pre n))
    (hsmooth : ∀ i ≤ n, (newestSmoothing (es ++ pre i)).1 < 1 / 100) (hslow : ∀ i, 1 ≤ i → i ≤ n → ¬ Fast u es pre i)
    (i : ℕ) (h2 : 2 ≤ i) (hi : i ≤ n) (hpace : tau ≤ t i - t (i - 1))
    (habove : ∀ k, 1 ≤ k → k ≤ 2 → (newestPose u (es ++ pre i)).1.x = (newestPose u (es ++ pre k)).1.x ∧ (newestPose u (es ++ pre i)).1.y = (newestPose u (es ++ pre k)).1.y)
    (hfar : 1 ≤ ((A i).goals.goal.val.minus (newestPose u (es ++ pre i)).1).norm) (hbelow : (newestPose u (es ++ pre i)).1.z + 1 / 10 < (A i).goals.goal.val.z) :
    let p := (newestPose u (es ++ pre i)).1
    ∃ w, (m i).position = V3.fin ⟨p.x, p.y, p.z + w⟩ ∧ min (tau / (9 / 10 + tau) * c) ((A i).goals.goal.val.minus p).norm ≤ w := by
  intro p
  obtain ⟨k, k1, k2, kr⟩ := takeoff_round r u l es h0 hto hn V c hV hc0 hc2 hu hwithin hfrom hsmooth hslow
  obtain ⟨-, b2, b3, b4, b5, b6, b7⟩ := kr i h2 hi
  obtain ⟨w, w2, w3⟩ := takeoff_aside_cycle (A i).gen.2 (newestInput u (es ++ pre i) (A i).goals.goal.val (A i).goals.is_land (A i).goals.is_takeoff (A i).goals.desired_velocity) (t i) b2 b3
    (hto i hi).nav (not_lt.mp (hslow i (by omega) hi)) (by
      dsimp only
      change (if (A i).gen.2.state_changed = true then (newestPose u (es ++ pre i)).1 else ((A i).gen.2.change_altitude_pos.getD (newestPose u (es ++ pre i)).1)).x = p.x ∧
        (if (A i).gen.2.state_changed = true then (newestPose u (es ++ pre i)).1 else ((A i).gen.2.change_altitude_pos.getD (newestPose u (es ++ pre i)).1)).y = p.y
      rw [b6]
      exact ⟨(habove k k1 k2).1.symm, (habove k k1 k2).2.symm⟩) hfar hbelow c hc0 b4
  refine ⟨w, ?_, w3 tau htau (by rw [b5]; exact hpace)⟩
  rw [b7, w2]
  rfl

end

end Avoidance
