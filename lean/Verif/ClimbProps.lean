import Verif.ReachGoalProps

/-!
# Climbing to the altitude of the goal (C114)

The local planner node in offboard mode, in a closed loop with a vehicle that flies to its setpoints: first the altitude of the goal has to be reached.
-/

namespace Avoidance
variable {Q : PriorityQueue (Candidate ℝ) Candidate.lt}

/-! ## One cycle of the generator in `ALTITUDE_CHANGE`, offboard -/

/-- The setpoint is straight above the vehicle, not above the goal; how far above. -/
theorem climb_cycle (s : WgState) (i : WgIn) (now : ℝ) (hl : s.auto_land = false) (h0 : 0 ≤ s.speed) (hn : i.nav = .offboard) (ha : i.airborne = true)
    (hz : i.position.z < i.goal.z) (c : ℝ) (hc0 : 0 ≤ c) (hc : c ≤ s.planner.cruise_velocity.getD 2) :
    let o := (wgCycle (.ALTITUDE_CHANGE, s) i now).2
    let d := i.goal.z - i.position.z
    ∃ k : ℝ, 0 ≤ k ∧ k ≤ d ∧ o.out_adapted = ⟨i.position.x, i.position.y, i.position.z + k⟩ ∧ (d ≤ 1 / 10 → k ≤ d ^ 2) ∧
      ∀ tau, 0 < tau → tau ≤ now - s.current_time → advance (tau / (9 / 10 + tau)) c d ≤ k := by
  dsimp only
  obtain ⟨al, re, sc, ho⟩ := wgCycle_out (.ALTITUDE_CHANGE, s) i now
  obtain ⟨a1, a2, a3, a4, a5, a6, a7, a8, a9, a10, a11, a12, a13, a14, a15, a16, a17, a18, -⟩ := wgStart_spec s i now
  obtain ⟨m1, m2, m3, m4, m5, m6, m7⟩ := targetOf_more .ALTITUDE_CHANGE (wgStart s i now)
  have hD := goalDistance_eq .ALTITUDE_CHANGE s i now
  have hp := (targetOf_reach .ALTITUDE_CHANGE (wgStart s i now)).2.2.2
  have hgo := (C37_altitude_waypoint s i now)
  have hdt' := pathDt_target .ALTITUDE_CHANGE s i now
  dsimp only at hgo
  have hgo := hgo.1 hn
  rw [ho] at hgo ⊢
  dsimp only at hgo ⊢
  generalize hg : targetOf .ALTITUDE_CHANGE (wgStart s i now) = g at hgo m1 m2 m3 m4 m5 m6 m7 hD hp hdt'
  obtain ⟨s1, s2, s3⟩ := getPathMsg_speed .ALTITUDE_CHANGE g (by rw [m1, a17, hl])
  rw [hp, a2] at s3
  have hfov : fovFactor .ALTITUDE_CHANGE g = 1 := by unfold fovFactor; rw [if_neg (by simp)]
  have hDe : goalDistance .ALTITUDE_CHANGE i = i.goal.z - i.position.z := by
    unfold goalDistance; rw [if_pos ⟨rfl, hn⟩, abs_of_pos (by linarith)]
  rw [hDe] at hgo
  rw [hD, hDe, m4, a1, m2, a18, hdt', hfov, mul_one] at s1
  set d := i.goal.z - i.position.z with hd
  have hd0 : 0 < d := by rw [hd]; linarith
  set T := cycleTime s now with hT
  have hTpos : 0 < T := by
    rw [hT]; unfold cycleTime; split_ifs with h
    · linarith
    · norm_num
  have ha1 : T / (9 / 10 + T) ≤ 1 := by rw [div_le_one (by linarith)]; linarith
  have ha0 : 0 < T / (9 / 10 + T) := by positivity
  have hrest : 0 ≤ (1 - T / (9 / 10 + T)) * s.speed := mul_nonneg (by linarith) h0
  have hin0 : 0 ≤ (if d < 1 then d else s.planner.cruise_velocity.getD 2) := by
    split_ifs
    · exact hd0.le
    · exact hc0.trans hc
  set x := (getPathMsg .ALTITUDE_CHANGE g).speed with hx
  have hx0 : 0 ≤ x := by
    rw [s1]
    exact le_min (by have := mul_nonneg ha0.le hin0; linarith) hd0.le
  have hxd : x ≤ d := by rw [s1]; exact min_le_right _ _
  have hlow : ∀ tau, 0 < tau → tau ≤ now - s.current_time → min (tau / (9 / 10 + tau) * (if d < 1 then d else c)) d ≤ x := by
    intro tau ht hle
    have hTe : T = now - s.current_time := by rw [hT]; unfold cycleTime; rw [if_pos (by linarith)]
    have haa : tau / (9 / 10 + tau) ≤ T / (9 / 10 + T) := by
      rw [hTe, div_le_div_iff₀ (by linarith) (by linarith)]; nlinarith
    rw [s1]
    refine min_le_min ?_ le_rfl
    have h1 : (if d < 1 then d else c) ≤ (if d < 1 then d else s.planner.cruise_velocity.getD 2) := by
      split_ifs
      · exact le_rfl
      · exact hc
    have h2 := mul_le_mul haa h1 (by split_ifs <;> linarith) ha0.le
    linarith
  have hgoto : (getPathMsg .ALTITUDE_CHANGE g).out_goto = ⟨i.position.x, i.position.y, i.position.z + min d 1⟩ := by
    by_cases hnear : d < 1
    · rw [hgo.1 ⟨hl, hnear⟩, min_eq_left hnear.le, hd]; congr 1; ring
    · rw [hgo.2.1 (fun h => hnear h.2) ha hz.le, min_eq_right (not_lt.mp hnear)]
  rw [hgoto] at s3
  have hw : (⟨i.position.x, i.position.y, i.position.z + min d 1⟩ : V3 ℝ).minus i.position = ⟨0, 0, min d 1⟩ := by
    unfold V3.minus; simp
  have hm0 : 0 < min d 1 := lt_min hd0 one_pos
  have hwn : (⟨0, 0, min d 1⟩ : V3 ℝ).norm = min d 1 := by
    unfold V3.norm V3.dot
    dsimp only
    rw [mul_zero, zero_add, zero_add]
    rw [Real.sqrt_mul_self hm0.le]
  rw [hw, hwn] at s3
  by_cases hten : min d 1 > 1 / 10
  · have hdt : 1 / 10 < d := lt_of_lt_of_le hten (min_le_left _ _)
    rw [if_pos hten, V3.smul_normalized (by rw [hwn]; exact hm0), hwn] at s3
    refine ⟨x, hx0, hxd, ?_, fun h => absurd hdt (not_lt.mpr h), fun tau ht hle => ?_⟩
    · rw [s3]; unfold V3.plus V3.smul; simp only [mul_zero, add_zero]
      rw [div_mul_cancel₀ _ hm0.ne']
    · have hl2 := hlow tau ht hle
      have hb1 : tau / (9 / 10 + tau) ≤ 1 := by rw [div_le_one (by linarith)]; linarith
      unfold advance
      by_cases h1 : 1 ≤ d
      · rw [if_pos h1]; rw [if_neg (not_lt.mpr h1)] at hl2; exact hl2
      · rw [if_neg h1, if_pos hdt]
        rw [if_pos (not_le.mp h1)] at hl2
        rw [min_eq_left (by nlinarith)] at hl2
        exact hl2
  · have hdt : d ≤ 1 / 10 := by
      by_contra h
      exact hten (lt_min (not_le.mp h) (by norm_num))
    rw [if_neg hten, min_eq_left (by linarith)] at s3
    refine ⟨x * d, mul_nonneg hx0 hd0.le, by nlinarith, ?_, fun _ => by nlinarith, fun tau ht hle => ?_⟩
    · rw [s3]; unfold V3.plus V3.smul; simp only [mul_zero, add_zero]
    · have hl2 := hlow tau ht hle
      have hb1 : tau / (9 / 10 + tau) ≤ 1 := by rw [div_le_one (by linarith)]; linarith
      rw [if_pos (by linarith), min_eq_left (by nlinarith)] at hl2
      unfold advance
      rw [if_neg (by linarith), if_neg (by linarith)]
      calc tau / (9 / 10 + tau) * d ^ 2 = (tau / (9 / 10 + tau) * d) * d := by ring
        _ ≤ x * d := mul_le_mul_of_nonneg_right hl2 hd0.le

/-- Whoever gets into `ALTITUDE_CHANGE` has looked at the landing. -/
theorem climb_enter (x : PlannerState × WgState) (i : WgIn) (now : ℝ) (hs : i.stay = false) (hn : i.nav = .offboard)
    (h : (wgCycle x i now).1 = .ALTITUDE_CHANGE) : (wgCycle x i now).2.auto_land = false := by
  by_contra hal
  rw [Bool.not_eq_false] at hal
  obtain ⟨a1, -, -, -, a5, a6, -, a8, -, a10, -⟩ := wgStart_spec x.2 i now
  have hno : ∀ st, (isAltitudeChange (getPathMsg st (targetOf st (wgStart x.2 i now)))).2.auto_land ≠ true := by
    intro st hh
    have h3 := (C37_altitude_change (getPathMsg st (targetOf st (wgStart x.2 i now)))).2.1
    have e := getPathMsg_frame st (targetOf st (wgStart x.2 i now))
    have := h3.1 hh
    rw [e.nav, (targetOf_reach st _).2.1, a5, hn] at this
    rcases this with h | ⟨h, -⟩ <;> cases h
  have hlo : ∀ st, (getPathMsg st (targetOf st (wgStart x.2 i now))).loiter = false := by
    intro st
    rw [(getPathMsg_frame st _).loiter]
    have : (targetOf st (wgStart x.2 i now)).loiter = (wgStart x.2 i now).loiter := by
      cases st
      · rfl
      · exact (altTarget_frame _).1
      · rfl
      · rfl
    rw [this, a8, hs]
  have hr : (wgRun x.1 (wgStart x.2 i now)).2.auto_land = true := hal
  rw [C37_next_state] at h
  obtain ⟨st, g⟩ := x
  dsimp only at h hno hlo hr
  unfold wgRun at hr
  cases st with
  | TRY_PATH =>
    dsimp only at hr
    unfold runTryPath at hr
    dsimp only at hr
    change (if (getPathMsg .TRY_PATH (targetOf .TRY_PATH (wgStart g i now))).loiter = true then _ else _ : Transition × WgState).2.auto_land = true at hr
    rw [if_neg (by rw [hlo]; decide)] at hr
    split_ifs at hr <;> exact hno _ hr
  | ALTITUDE_CHANGE =>
    dsimp only at hr
    unfold runAltitudeChange at hr
    dsimp only at hr
    change (if (getPathMsg .ALTITUDE_CHANGE (targetOf .ALTITUDE_CHANGE (wgStart g i now))).loiter = true then _ else _ : Transition × WgState).2.auto_land = true at hr
    rw [if_neg (by rw [hlo]; decide)] at hr
    split_ifs at hr <;> exact hno _ hr
  | LOITER => dsimp only at h; split_ifs at h
  | DIRECT =>
    dsimp only at h hr
    by_cases hp : PathUsable g.planner now
    · rw [if_pos hp] at h; cases h
    · unfold runDirect at hr
      dsimp only at hr
      have e := getPathMsg_frame .DIRECT (targetOf .DIRECT (wgStart g i now))
      have h1 : (getPathMsg .DIRECT (targetOf .DIRECT (wgStart g i now))).planner = g.planner := by rw [e.planner]; exact a1
      have h2 : (getPathMsg .DIRECT (targetOf .DIRECT (wgStart g i now))).current_time = now := by rw [e.current_time]; exact a10
      change (if (wgSetpoint (getPathMsg .DIRECT (targetOf .DIRECT (wgStart g i now))).planner (getPathMsg .DIRECT (targetOf .DIRECT (wgStart g i now))).current_time).1 = true then _ else _ :
        Transition × WgState).2.auto_land = true at hr
      rw [if_neg (by rw [h1, h2]; exact hp)] at hr
      split_ifs at hr <;> exact hno _ hr

/-! ## Between the rounds -/

/-- Mode and flags of the generator change only when a message is sent. -/
theorem flags_step {s s' : NodeSt} {e : NodeEvent} (h : nodeStep Q s e = some s') :
    (s'.sent = s.sent ∧ s'.gen.1 = s.gen.1 ∧ s'.gen.2.reach_altitude_offboard = s.gen.2.reach_altitude_offboard ∧ s'.gen.2.auto_land = s.gen.2.auto_land ∧
      s'.gen.2.smoothed_loc = s.gen.2.smoothed_loc) ∨
    s.sent.length < s'.sent.length := by
  cases e with
  | send t =>
    unfold nodeStep at h
    dsimp only at h
    split_ifs at h
    obtain rfl := Option.some.inj h
    obtain ⟨a1, a2⟩ := sendStep_active s t
    by_cases ha : t - s.last_wp_time ≤ 1 / 2 ∨ t - s.start_time ≤ 5
    · obtain ⟨b1, b2, -⟩ := a1 ha
      refine Or.inr ?_
      rw [b2]; simp
    · obtain ⟨b1, b2, -⟩ := a2 ha
      exact Or.inl ⟨b2, by rw [b1], by rw [b1], by rw [b1], by rw [b1]⟩
  | planStart f t =>
    unfold nodeStep at h
    dsimp only at h
    split_ifs at h
    rw [Option.map_eq_some_iff] at h
    obtain ⟨pl, -, rfl⟩ := h
    exact Or.inl ⟨rfl, rfl, rfl, rfl, rfl⟩
  | poll t =>
    unfold nodeStep at h
    dsimp only at h
    rw [Option.bind_eq_some_iff] at h
    obtain ⟨t0, -, h⟩ := h
    split_ifs at h <;> obtain rfl := Option.some.inj h <;> exact Or.inl ⟨rfl, rfl, rfl, rfl, rfl⟩
  | config c a b t =>
    unfold nodeStep at h
    dsimp only at h
    split_ifs at h
    obtain rfl := Option.some.inj h
    exact Or.inl ⟨rfl, rfl, rfl, rfl, rfl⟩
  | planEnd t =>
    unfold nodeStep at h
    dsimp only at h
    split_ifs at h
    obtain rfl := Option.some.inj h
    exact Or.inl ⟨rfl, rfl, rfl, rfl, rfl⟩
  | timer t =>
    unfold nodeStep at h
    dsimp only at h
    split_ifs at h
    obtain rfl := Option.some.inj h
    exact Or.inl ⟨rfl, rfl, rfl, rfl, rfl⟩
  | _ => obtain rfl := Option.some.inj h; exact Or.inl ⟨rfl, rfl, rfl, rfl, rfl⟩

theorem flags_run (ms : List NodeEvent) : ∀ x y : NodeSt, loopM (nodeStep Q) x ms = some y →
    x.sent.length ≤ y.sent.length ∧ (y.sent.length = x.sent.length → y.gen.1 = x.gen.1 ∧
      y.gen.2.reach_altitude_offboard = x.gen.2.reach_altitude_offboard ∧ y.gen.2.auto_land = x.gen.2.auto_land ∧
      y.gen.2.smoothed_loc = x.gen.2.smoothed_loc) := by
  induction ms using List.reverseRecOn with
  | nil => intro x y h; obtain rfl := Option.some.inj h; exact ⟨le_rfl, fun _ => ⟨rfl, rfl, rfl, rfl⟩⟩
  | append_singleton ms e ih =>
    intro x y h
    obtain ⟨z, z1, z2⟩ := loopM_snoc h
    obtain ⟨i1, i2⟩ := ih x z z1
    rcases flags_step z2 with ⟨h1, h2, h3, h4, h5⟩ | h1
    · rw [h1, h2, h3, h4, h5]; exact ⟨i1, i2⟩
    · exact ⟨by omega, fun h => by omega⟩

section
variable {s0 : NodeSt} {n : ℕ} {pre : ℕ → List NodeEvent} {A S : ℕ → NodeSt} {t : ℕ → ℝ} {m : ℕ → SentMsg}

theorem Rounds.flags (r : Rounds Q s0 n pre A S t m) (i : ℕ) (hi : i < n) : (A (i + 1)).gen.1 = (S i).gen.1 ∧
    (A (i + 1)).gen.2.reach_altitude_offboard = (S i).gen.2.reach_altitude_offboard ∧ (A (i + 1)).gen.2.auto_land = (S i).gen.2.auto_land ∧
    (A (i + 1)).gen.2.smoothed_loc = (S i).gen.2.smoothed_loc := by
  obtain ⟨B, hB⟩ := r.next i hi
  have h1 := r.upTo (i + 1) (by omega)
  rw [hB, loopM_append', r.upTo i (by omega)] at h1
  have h2 : loopM (nodeStep Q) (A i) (.send (t i) :: B) = loopM (nodeStep Q) (S i) B := by
    show (nodeStep Q (A i) (.send (t i))).bind _ = _
    rw [r.round i (by omega)]
    rfl
  have h1 : loopM (nodeStep Q) (A i) (.send (t i) :: B) = some (A (i + 1)) := h1
  rw [h2] at h1
  exact (flags_run B _ _ h1).2 (by rw [r.only i hi])

/-- A round that sends a message is one cycle of the generator. -/
theorem Rounds.cycle (r : Rounds Q s0 n pre A S t m) (u : Uninit) (l : Launch) (es : List NodeEvent) (h0 : loopM (nodeStep Q) (nodeInit u l) es = some s0) (i : ℕ) (hi : i ≤ n) :
    let I := newestInput u (es ++ pre i) (A i).goals.goal.val (A i).goals.is_land (A i).goals.is_takeoff (A i).goals.desired_velocity
    let o := wgCycle (A i).gen I (t i)
    (S i).gen = o ∧ m i = ⟨t i, o.2.out_position, o.2.setpoint_yaw, o.2.out_linear_velocity, o.2.out_goto, o.2.out_adapted⟩ := by
  have hrun : loopM (nodeStep Q) (nodeInit u l) (es ++ pre i) = some (A i) := by rw [loopM_append', h0]; exact r.upTo i hi
  obtain ⟨a1, a2⟩ := C91_message u l _ (A i) (S i) (t i) hrun (r.round i hi)
  have hm := r.sends i hi
  by_cases ha : t i - newestPlan (es ++ pre i) ≤ 1 / 2 ∨ t i - l.start ≤ 5
  swap
  · rw [(a2 ha).2] at hm
    have := congrArg List.length hm
    simp at this
  obtain ⟨b1, b2⟩ := a1 ha
  rw [b2] at hm
  exact ⟨b1, (List.cons.inj (List.append_cancel_left hm)).1.symm⟩

end

/-! ## Specification -/

/-- In all rounds the vehicle is armed and in offboard mode, and the goal is at height `h`. -/
structure OffboardTo (h : ℝ) (es : List NodeEvent) (n : ℕ) (pre : ℕ → List NodeEvent) (A : ℕ → NodeSt) : Prop where
  state : ∀ i ≤ n, newestState (es ++ pre i) = (true, .offboard)
  height : ∀ i ≤ n, (A i).goals.goal.val.z = h

/-- From round 2 on the vehicle flies straight towards the published position, the part `f i` of the way. -/
structure FliesTowards (u : Uninit) (es : List NodeEvent) (n : ℕ) (pre : ℕ → List NodeEvent) (m : ℕ → SentMsg) (f : ℕ → ℝ) : Prop where
  part : ∀ i, 2 ≤ i → i < n → 0 ≤ f i ∧ f i ≤ 1
  moves : ∀ i, 2 ≤ i → i < n → ∃ q, (m i).position = V3.fin q ∧
    (newestPose u (es ++ pre (i + 1))).1 = ((newestPose u (es ++ pre i)).1).plus (V3.smul (f i) (q.minus (newestPose u (es ++ pre i)).1))

/-! ## The closed loop -/

section
variable {s0 : NodeSt} {n : ℕ} {pre : ℕ → List NodeEvent} {A S : ℕ → NodeSt} {t : ℕ → ℝ} {m : ℕ → SentMsg} {h : ℝ}

theorem climb_mode (r : Rounds Q s0 n pre A S t m) (u : Uninit) (l : Launch) (es : List NodeEvent) (h0 : loopM (nodeStep Q) (nodeInit u l) es = some s0)
    (ho : OffboardTo h es n pre A) (hnot : (A 0).gen.2.reach_altitude_offboard = false) :
    ∀ i ≤ n, (∀ j < i, (newestPose u (es ++ pre j)).1.z < h) →
      (A i).gen.2.reach_altitude_offboard = false ∧ (1 ≤ i → (A i).gen.1 = .ALTITUDE_CHANGE ∨ (A i).gen.1 = .TRY_PATH) ∧
      (2 ≤ i → (A i).gen.1 = .ALTITUDE_CHANGE) ∧ (1 ≤ i → (A i).gen.1 = .ALTITUDE_CHANGE → (A i).gen.2.auto_land = false) := by
  intro i
  induction i with
  | zero => intro _ _; exact ⟨hnot, by omega, by omega, by omega⟩
  | succ i ih =>
    intro hi hlow
    obtain ⟨i1, i2, i3, i4⟩ := ih (by omega) (fun j hj => hlow j (by omega))
    obtain ⟨f1, f2, f3, -⟩ := r.flags i (by omega)
    obtain ⟨c1, -⟩ := r.cycle u l es h0 i (by omega)
    set I := newestInput u (es ++ pre i) (A i).goals.goal.val (A i).goals.is_land (A i).goals.is_takeoff (A i).goals.desired_velocity with hI
    have hn : I.nav = .offboard := by show (newestState (es ++ pre i)).2 = _; rw [ho.state i (by omega)]
    have hz : I.position.z < I.goal.z := by
      show (newestPose u (es ++ pre i)).1.z < (A i).goals.goal.val.z
      rw [ho.height i (by omega)]; exact hlow i (by omega)
    obtain ⟨k1, k2⟩ := C37_offboard_altitude_first (A i).gen I (t i) rfl hn (by unfold reachedBefore; rw [i1]; simp) hz
    rw [f1, f2, f3, c1]
    refine ⟨k2, fun _ => k1.imp id (fun h => h.1), fun h2 => ?_, fun _ hm => climb_enter _ _ _ rfl hn hm⟩
    rcases k1 with k1 | ⟨-, k3, k4⟩
    · exact k1
    · rcases i2 (by omega) with h | h
      · exact absurd h k4
      · exact absurd h k3

/-- A setpoint of the climb, from the third round on. -/
theorem climb_round (r : Rounds Q s0 n pre A S t m) (u : Uninit) (l : Launch) (es : List NodeEvent) (h0 : loopM (nodeStep Q) (nodeInit u l) es = some s0)
    (ho : OffboardTo h es n pre A) (hnot : (A 0).gen.2.reach_altitude_offboard = false)
    (V c : ℝ) (hV : 2 ≤ V) (hc0 : 0 ≤ c) (hc2 : c ≤ 2)
    (hu : ∀ x, u.cruise_velocity = some x → c ≤ x ∧ x ≤ V) (hwithin : PlansWithin V l (es ++ pre n)) (hfrom : PlansFrom c l (es ++ pre n))
    (hsmooth : ∀ i ≤ n, (newestSmoothing (es ++ pre i)).1 < 1 / 100)
    (i : ℕ) (h2 : 2 ≤ i) (hi : i ≤ n) (hlow : ∀ j ≤ i, (newestPose u (es ++ pre j)).1.z < h) :
    let p := (newestPose u (es ++ pre i)).1
    let d := h - p.z
    (A i).gen.1 = .ALTITUDE_CHANGE ∧
    ∃ k : ℝ, 0 ≤ k ∧ k ≤ d ∧ (m i).position = V3.fin ⟨p.x, p.y, p.z + k⟩ ∧ (d ≤ 1 / 10 → k ≤ d ^ 2) ∧
      ∀ tau, 0 < tau → tau ≤ t i - t (i - 1) → advance (tau / (9 / 10 + tau)) c d ≤ k := by
  dsimp only
  obtain ⟨b1, -, b3, b4⟩ := climb_mode r u l es h0 ho hnot i hi (fun j hj => hlow j hj.le)
  have hmode := b3 h2
  have hland := b4 (by omega) hmode
  obtain ⟨⟨R, hR⟩, -⟩ := r.prefix (n - i) i (by omega)
  have hwi : PlansWithin V l (es ++ pre i) := fun a f x b e => hwithin a f x (b ++ R) (by rw [hR, ← List.append_assoc, e]; simp)
  have hfm : PlansFrom c l (es ++ pre i) := fun a f x b e => hfrom a f x (b ++ R) (by rw [hR, ← List.append_assoc, e]; simp)
  have hu' : ∀ x, u.cruise_velocity = some x → 0 ≤ x ∧ x ≤ V := fun x hx => ⟨hc0.trans (hu x hx).1, (hu x hx).2⟩
  have hrun : loopM (nodeStep Q) (nodeInit u l) (es ++ pre i) = some (A i) := by rw [loopM_append', h0]; exact r.upTo i hi
  have hsp := (C92_speed_partial V hV u l _ _ hrun hu' hwi).1
  have hcr := gen_cruise_from c u l _ _ hrun hc2 V (fun x hx => (hu x hx).1) hwi hfm
  obtain ⟨-, hm⟩ := r.cycle u l es h0 i hi
  have hgen : (A i).gen = (.ALTITUDE_CHANGE, (A i).gen.2) := by rw [← hmode]
  rw [hgen] at hm
  set I := newestInput u (es ++ pre i) (A i).goals.goal.val (A i).goals.is_land (A i).goals.is_takeoff (A i).goals.desired_velocity with hI
  have hn : I.nav = .offboard := by show (newestState (es ++ pre i)).2 = _; rw [ho.state i hi]
  have ha : I.airborne = true := by
    show ((newestState (es ++ pre i)).1 && decide ((newestState (es ++ pre i)).2 ≠ .none)) = true
    rw [ho.state i hi]; rfl
  have Ig : I.goal.z = h := ho.height i hi
  have hz : I.position.z < I.goal.z := by rw [Ig]; exact hlow i le_rfl
  obtain ⟨k, k0, k1, k2, k3, k4⟩ := climb_cycle (A i).gen.2 I (t i) hland hsp hn ha hz c hc0 hcr
  have hpos : (wgCycle (.ALTITUDE_CHANGE, (A i).gen.2) I (t i)).2.out_position = (wgCycle (.ALTITUDE_CHANGE, (A i).gen.2) I (t i)).2.out_adapted.fin := by
    have ks := (nodeKnows u l _ _ hrun).smoothing
    have hsm := hsmooth i hi
    rw [← ks] at hsm
    obtain ⟨al, re, sc, ho⟩ := wgCycle_out (.ALTITUDE_CHANGE, (A i).gen.2) I (t i)
    obtain ⟨m1, -⟩ := targetOf_more .ALTITUDE_CHANGE (wgStart (A i).gen.2 I (t i))
    obtain ⟨-, -, -, -, -, -, -, -, -, -, -, -, -, -, -, -, a17, -, -, -, a21, a22, -⟩ := wgStart_spec (A i).gen.2 I (t i)
    obtain ⟨-, -, m5, m6, -⟩ := targetOf_filter .ALTITUDE_CHANGE (wgStart (A i).gen.2 I (t i))
    rw [ho]
    dsimp only
    exact C39_disabled _ _ (by rw [m1, a17, hland]) (Or.inl (by rw [m5, a21]; exact hsm))
  rw [Ig] at k1 k3 k4
  refine ⟨hmode, k, k0, k1, ?_, k3, fun tau ht hle => k4 tau ht ?_⟩
  · rw [hm]
    dsimp only
    rw [hpos, k2]
    rfl
  · obtain ⟨j, rfl⟩ : ∃ j, i = j + 1 := ⟨i - 1, by omega⟩
    rw [(r.time j (by omega)).1, (r.cycle u l es h0 j (by omega)).1]
    obtain ⟨al, re, sc, ho⟩ := wgCycle_out (A j).gen (newestInput u (es ++ pre j) (A j).goals.goal.val (A j).goals.is_land (A j).goals.is_takeoff (A j).goals.desired_velocity) (t j)
    rw [ho]
    dsimp only
    rw [(getPathMsg_frame _ _).current_time]
    have ht : (targetOf (A j).gen.1 (wgStart (A j).gen.2 (newestInput u (es ++ pre j) (A j).goals.goal.val (A j).goals.is_land (A j).goals.is_takeoff (A j).goals.desired_velocity) (t j))).current_time = t j := by
      cases (A j).gen.1
      · rfl
      · exact (altTarget_frame _).2.2.2.2.2.2.2.2.2.2.2.2.1
      · rfl
      · rfl
    rw [ht]
    exact hle

/-- **C114, the climb.** A node in offboard mode, armed, the altitude of the goal not yet reached; the vehicle flies at least the part `part` of the way to each published position,
straight; setpoints are at least `tau` apart and no smoothing is configured. From the third round on, as long as the vehicle is below the goal, every setpoint is straight above the
vehicle and not above the goal - wherever the goal is horizontally and whatever plans, obstacles and goals of that altitude arrive -, the vehicle stays where it is horizontally, and each round brings
it up by at least an amount known in advance; and so every distance `eps` from the altitude is reached, after a number of rounds known in advance. -/
theorem C114_climbs_partial (r : Rounds Q s0 n pre A S t m) (u : Uninit) (l : Launch) (es : List NodeEvent) (h0 : loopM (nodeStep Q) (nodeInit u l) es = some s0)
    (ho : OffboardTo h es n pre A) (hnot : (A 0).gen.2.reach_altitude_offboard = false)
    (V c tau part : ℝ) (hV : 2 ≤ V) (hc0 : 0 ≤ c) (hc2 : c ≤ 2) (htau : 0 < tau) (hpart : 0 ≤ part)
    (hu : ∀ x, u.cruise_velocity = some x → c ≤ x ∧ x ≤ V) (hwithin : PlansWithin V l (es ++ pre n)) (hfrom : PlansFrom c l (es ++ pre n))
    (hsmooth : ∀ i ≤ n, (newestSmoothing (es ++ pre i)).1 < 1 / 100) (hpace : ∀ i < n, tau ≤ t (i + 1) - t i)
    (f : ℕ → ℝ) (fl : FliesTowards u es n pre m f) (hf : ∀ i, 2 ≤ i → i < n → part ≤ f i) :
    let p := fun i => (newestPose u (es ++ pre i)).1
    let a := tau / (9 / 10 + tau)
    (∀ i, 2 ≤ i → i ≤ n → (∀ j ≤ i, (p j).z < h) →
      (p i).x = (p 2).x ∧ (p i).y = (p 2).y ∧ ∃ k, 0 ≤ k ∧ (p i).z + k ≤ h ∧ (m i).position = V3.fin ⟨(p i).x, (p i).y, (p i).z + k⟩ ∧
        (i < n → h - (p (i + 1)).z ≤ h - (p i).z - part * advance a c (h - (p i).z) ∧ (p (i + 1)).z ≤ h)) ∧
    (∀ eps, 0 < eps → eps ≤ 1 / 10 → 2 ≤ n → h - (p 2).z ≤ ((n : ℝ) - 2) * (part * (a * min c (eps ^ 2))) → ∃ i ≤ n, h - eps ≤ (p i).z) := by
  intro p a
  have hstep : ∀ i, 2 ≤ i → i ≤ n → (∀ j ≤ i, (p j).z < h) → ∃ k, 0 ≤ k ∧ (p i).z + k ≤ h ∧ (m i).position = V3.fin ⟨(p i).x, (p i).y, (p i).z + k⟩ ∧
      (i < n → h - (p (i + 1)).z ≤ h - (p i).z - part * advance a c (h - (p i).z) ∧ (p (i + 1)).z ≤ h ∧ (p (i + 1)).x = (p i).x ∧ (p (i + 1)).y = (p i).y) := by
    intro i h2 hi hlow
    obtain ⟨-, k, k0, k1, k2, -, k4⟩ := climb_round r u l es h0 ho hnot V c hV hc0 hc2 hu hwithin hfrom hsmooth i h2 hi hlow
    refine ⟨k, k0, by show (newestPose u (es ++ pre i)).1.z + k ≤ h; linarith, k2, fun hin => ?_⟩
    obtain ⟨q, q1, q2⟩ := fl.moves i h2 hin
    rw [k2] at q1
    obtain rfl := fin_inj q1
    obtain ⟨f0, f1⟩ := fl.part i h2 hin
    have k4 := k4 tau htau (by
      have := hpace (i - 1) (by omega)
      rwa [show i - 1 + 1 = i by omega] at this)
    have hz : (p (i + 1)).z = (p i).z + f i * k := by
      show (newestPose u (es ++ pre (i + 1))).1.z = _
      rw [q2]; unfold V3.plus V3.smul V3.minus
      show (newestPose u (es ++ pre i)).1.z + f i * ((newestPose u (es ++ pre i)).1.z + k - (newestPose u (es ++ pre i)).1.z) = _
      ring
    refine ⟨?_, ?_, ?_, ?_⟩
    · rw [hz]
      have h1 : part * advance a c (h - (p i).z) ≤ part * k := mul_le_mul_of_nonneg_left k4 hpart
      have h2 : part * k ≤ f i * k := mul_le_mul_of_nonneg_right (hf i h2 hin) k0
      linarith
    · rw [hz]
      have : f i * k ≤ k := by nlinarith
      have hk1 : k ≤ h - (p i).z := k1
      linarith
    · show (newestPose u (es ++ pre (i + 1))).1.x = (newestPose u (es ++ pre i)).1.x
      rw [q2]; unfold V3.plus V3.smul V3.minus; simp
    · show (newestPose u (es ++ pre (i + 1))).1.y = (newestPose u (es ++ pre i)).1.y
      rw [q2]; unfold V3.plus V3.smul V3.minus; simp
  have hxy : ∀ i, 2 ≤ i → i ≤ n → (∀ j ≤ i, (p j).z < h) → (p i).x = (p 2).x ∧ (p i).y = (p 2).y := by
    intro i h2
    induction i, h2 using Nat.le_induction with
    | base => intro _ _; exact ⟨rfl, rfl⟩
    | succ i h2 ih =>
      intro hi hlow
      obtain ⟨x1, x2⟩ := ih (by omega) (fun j hj => hlow j (by omega))
      obtain ⟨k, -, -, -, k4⟩ := hstep i h2 (by omega) (fun j hj => hlow j (by omega))
      obtain ⟨-, -, k5, k6⟩ := k4 (by omega)
      exact ⟨k5.trans x1, k6.trans x2⟩
  refine ⟨fun i h2 hi hlow => ?_, ?_⟩
  · obtain ⟨k, k0, k1, k2, k3⟩ := hstep i h2 hi hlow
    exact ⟨(hxy i h2 hi hlow).1, (hxy i h2 hi hlow).2, k, k0, k1, k2, fun hin => ⟨(k3 hin).1, (k3 hin).2.1⟩⟩
  · intro eps he0 he1 hn hlen
    by_contra hnone
    push Not at hnone
    have hall : ∀ j ≤ n, (p j).z < h := fun j hj => by have := hnone j hj; linarith
    have ha0 : 0 < a := by show 0 < tau / (9 / 10 + tau); positivity
    have ha1 : a ≤ 1 := by show tau / (9 / 10 + tau) ≤ 1; rw [div_le_one (by linarith)]; linarith
    have hmin0 : 0 ≤ min c (eps ^ 2) := le_min hc0 (sq_nonneg _)
    have hmine : min c (eps ^ 2) ≤ eps ^ 2 := min_le_right _ _
    have hadv : ∀ x, eps < x → a * min c (eps ^ 2) ≤ advance a c x := by
      intro x hx
      unfold advance
      split_ifs with h1 h2
      · refine le_min (mul_le_mul_of_nonneg_left (min_le_left _ _) ha0.le) ?_
        have : a * min c (eps ^ 2) ≤ 1 * eps ^ 2 := mul_le_mul ha1 hmine hmin0 zero_le_one
        nlinarith
      · refine mul_le_mul_of_nonneg_left ?_ ha0.le
        nlinarith
      · refine mul_le_mul_of_nonneg_left ?_ ha0.le
        nlinarith
    have hsum : ∀ i, 2 ≤ i → i ≤ n → h - (p i).z ≤ h - (p 2).z - ((i : ℝ) - 2) * (part * (a * min c (eps ^ 2))) := by
      intro i h2
      induction i, h2 using Nat.le_induction with
      | base => intro _; push_cast; linarith
      | succ i h2 ih =>
        intro hi
        have h1 := ih (by omega)
        obtain ⟨k, -, -, -, k4⟩ := hstep i h2 (by omega) (fun j hj => hall j (by omega))
        obtain ⟨k5, -⟩ := k4 (by omega)
        have h3 := mul_le_mul_of_nonneg_left (hadv (h - (p i).z) (by have := hnone i (by omega); linarith)) hpart
        push_cast
        linarith
    have h5 := hsum n hn le_rfl
    have h6 := hnone n le_rfl
    linarith

/-- **C114 (violated): the last ten centimetres.** Expected: a vehicle that flies to its setpoints reaches the altitude of its goal and then flies on to the goal. But within 10 cm of the altitude the
setpoint is above the vehicle by at most the square of the missing height, and the altitude counts as reached only when it is reached exactly. So a vehicle that flies straight towards each setpoint, all the way
but not beyond it, is still below the altitude after any number of rounds, still climbing, and is never sent to the goal: every setpoint is straight above it. The same holds from any height below the
goal for a vehicle that never quite reaches a setpoint. -/
theorem C114_never_reached_violated (r : Rounds Q s0 n pre A S t m) (u : Uninit) (l : Launch) (es : List NodeEvent) (h0 : loopM (nodeStep Q) (nodeInit u l) es = some s0)
    (ho : OffboardTo h es n pre A) (hnot : (A 0).gen.2.reach_altitude_offboard = false)
    (V : ℝ) (hV : 2 ≤ V) (hu : ∀ x, u.cruise_velocity = some x → 0 ≤ x ∧ x ≤ V) (hwithin : PlansWithin V l (es ++ pre n))
    (hsmooth : ∀ i ≤ n, (newestSmoothing (es ++ pre i)).1 < 1 / 100)
    (f : ℕ → ℝ) (fl : FliesTowards u es n pre m f) (hlow : ∀ i ≤ 2, (newestPose u (es ++ pre i)).1.z < h)
    (hshort : h - (newestPose u (es ++ pre 2)).1.z ≤ 1 / 10 ∨ ∀ i, 2 ≤ i → i < n → f i < 1) :
    let p := fun i => (newestPose u (es ++ pre i)).1
    ∀ i, 2 ≤ i → i ≤ n → (p i).z < h ∧ (A i).gen.1 = .ALTITUDE_CHANGE ∧ (p i).x = (p 2).x ∧ (p i).y = (p 2).y ∧
      ∃ k, (p i).z + k ≤ h ∧ (m i).position = V3.fin ⟨(p i).x, (p i).y, (p i).z + k⟩ := by
  intro p
  have hfrom : PlansFrom 0 l (es ++ pre n) := by
    intro a g x b e cf hcf
    obtain ⟨-, cf', q1, q2, -⟩ := hwithin a g x b e
    rw [hcf] at q1
    obtain rfl := Option.some.inj q1
    exact q2
  have key : ∀ i, 2 ≤ i → i ≤ n → (∀ j ≤ i, (p j).z < h) ∧ (p i).x = (p 2).x ∧ (p i).y = (p 2).y ∧ (p 2).z ≤ (p i).z := by
    intro i h2
    induction i, h2 using Nat.le_induction with
    | base => intro _; exact ⟨hlow, rfl, rfl, le_rfl⟩
    | succ i h2 ih =>
      intro hi
      obtain ⟨j1, j2, j3, j4⟩ := ih (by omega)
      obtain ⟨-, k, k0, k1, k2, k3, -⟩ := climb_round r u l es h0 ho hnot V 0 hV le_rfl (by norm_num) hu hwithin hfrom hsmooth i h2 (by omega) j1
      obtain ⟨q, q1, q2⟩ := fl.moves i h2 (by omega)
      rw [k2] at q1
      obtain rfl := fin_inj q1
      obtain ⟨f0, f1⟩ := fl.part i h2 (by omega)
      have hz : (p (i + 1)).z = (p i).z + f i * k := by
        show (newestPose u (es ++ pre (i + 1))).1.z = _
        rw [q2]; unfold V3.plus V3.smul V3.minus
        show (newestPose u (es ++ pre i)).1.z + f i * ((newestPose u (es ++ pre i)).1.z + k - (newestPose u (es ++ pre i)).1.z) = _
        ring
      have hk1 : k ≤ h - (p i).z := k1
      have hk3 : h - (p i).z ≤ 1 / 10 → k ≤ (h - (p i).z) ^ 2 := k3
      have hdi := j1 i le_rfl
      have hlt : f i * k < h - (p i).z := by
        rcases hshort with hs | hs
        · have hs : h - (p 2).z ≤ 1 / 10 := hs
          have := hk3 (by linarith)
          have hfk : f i * k ≤ k := by nlinarith
          nlinarith
        · have := hs i h2 (by omega)
          rcases k0.eq_or_lt with hk | hk
          · rw [← hk]; linarith
          · nlinarith
      refine ⟨fun j hj => ?_, ?_, ?_, ?_⟩
      · rcases Nat.lt_or_ge j (i + 1) with hj' | hj'
        · exact j1 j (by omega)
        · obtain rfl : j = i + 1 := by omega
          rw [hz]; linarith
      · show (newestPose u (es ++ pre (i + 1))).1.x = _
        rw [← j2, q2]; unfold V3.plus V3.smul V3.minus; simp [p]
      · show (newestPose u (es ++ pre (i + 1))).1.y = _
        rw [← j3, q2]; unfold V3.plus V3.smul V3.minus; simp [p]
      · rw [hz]
        have := mul_nonneg f0 k0
        linarith
  intro i h2 hi
  obtain ⟨j1, j2, j3, -⟩ := key i h2 hi
  obtain ⟨hmode, k, -, k1, k2, -⟩ := climb_round r u l es h0 ho hnot V 0 hV le_rfl (by norm_num) hu hwithin hfrom hsmooth i h2 hi j1
  exact ⟨j1 i le_rfl, hmode, j2, j3, k, by show (newestPose u (es ++ pre i)).1.z + k ≤ h; linarith, k2⟩

/-! ## When the altitude counts as reached -/

/-- The cycle remembers the altitude, and notices it when it looks. -/
theorem reach_noted (x : PlannerState × WgState) (i : WgIn) (now : ℝ) (hs : i.stay = false)
    (h : reachedBefore x.2 i = true ∨ (i.nav = .offboard ∧ i.goal.z ≤ i.position.z ∧ (x.1 = .TRY_PATH ∨ x.1 = .ALTITUDE_CHANGE))) :
    (wgCycle x i now).2.reach_altitude_offboard = true ∧ (wgCycle x i now).2.smoothed_loc.isSome := by
  obtain ⟨a1, a2, -, a4, a5, a6, -, a8, -, a10, -, -, -, -, -, a16, -, -, a19, -⟩ := wgStart_spec x.2 i now
  have hsm : ∀ st, (targetOf st (wgStart x.2 i now)).smoothed_loc.isSome := by
    intro st
    cases st
    · exact a19
    · rw [show (targetOf .ALTITUDE_CHANGE (wgStart x.2 i now)).smoothed_loc = _ from (altTarget_frame _).2.2.2.2.2.2.2.1]; exact a19
    · exact a19
    · exact a19
  refine ⟨?_, ?_⟩
  swap
  · obtain ⟨al, re, sc, ho⟩ := wgCycle_out x i now
    rw [ho]
    exact (getPathMsg_frame _ _).smoothed (hsm _)
  have hyes : ∀ st, (reachedBefore x.2 i = true ∨ (i.nav = .offboard ∧ i.goal.z ≤ i.position.z)) →
      (isAltitudeChange (getPathMsg st (targetOf st (wgStart x.2 i now)))).2.reach_altitude_offboard = true := by
    intro st hh
    have h3 := (C37_altitude_change (getPathMsg st (targetOf st (wgStart x.2 i now)))).2.2
    have e := getPathMsg_frame st (targetOf st (wgStart x.2 i now))
    obtain ⟨t1, t2, t3, t4⟩ := targetOf_reach st (wgStart x.2 i now)
    rw [e.nav, e.reach, e.goal, e.position, t1, t2, t3, t4, a16, a5, a4, a2] at h3
    exact h3.2 hh
  have hkeep : ∀ st, reachedBefore x.2 i = true → (getPathMsg st (targetOf st (wgStart x.2 i now))).reach_altitude_offboard = true := by
    intro st hh
    rw [(getPathMsg_frame st _).reach, (targetOf_reach st _).1, a16, hh]
  have hlo : ∀ st, (getPathMsg st (targetOf st (wgStart x.2 i now))).loiter = false := by
    intro st
    rw [(getPathMsg_frame st _).loiter]
    have : (targetOf st (wgStart x.2 i now)).loiter = (wgStart x.2 i now).loiter := by
      cases st
      · rfl
      · exact (altTarget_frame _).1
      · rfl
      · rfl
    rw [this, a8, hs]
  show (wgRun x.1 (wgStart x.2 i now)).2.reach_altitude_offboard = true
  obtain ⟨st, g⟩ := x
  dsimp only at h hyes hkeep hlo ⊢
  unfold wgRun
  cases st with
  | TRY_PATH =>
    dsimp only
    unfold runTryPath
    dsimp only
    change (if (getPathMsg .TRY_PATH (targetOf .TRY_PATH (wgStart g i now))).loiter = true then _ else _ : Transition × WgState).2.reach_altitude_offboard = true
    rw [if_neg (by rw [hlo]; decide)]
    have := hyes .TRY_PATH (h.imp id (fun h => ⟨h.1, h.2.1⟩))
    split_ifs <;> exact this
  | ALTITUDE_CHANGE =>
    dsimp only
    unfold runAltitudeChange
    dsimp only
    change (if (getPathMsg .ALTITUDE_CHANGE (targetOf .ALTITUDE_CHANGE (wgStart g i now))).loiter = true then _ else _ : Transition × WgState).2.reach_altitude_offboard = true
    rw [if_neg (by rw [hlo]; decide)]
    have := hyes .ALTITUDE_CHANGE (h.imp id (fun h => ⟨h.1, h.2.1⟩))
    split_ifs <;> exact this
  | LOITER =>
    have hr : reachedBefore g i = true := by
      rcases h with h | ⟨-, -, h | h⟩
      · exact h
      · cases h
      · cases h
    dsimp only
    unfold runLoiter
    dsimp only
    change (if (getPathMsg .LOITER (targetOf .LOITER (wgStart g i now))).loiter = true then _ else _ : Transition × WgState).2.reach_altitude_offboard = true
    rw [if_neg (by rw [hlo]; decide)]
    exact hkeep .LOITER hr
  | DIRECT =>
    have hr : reachedBefore g i = true := by
      rcases h with h | ⟨-, -, h | h⟩
      · exact h
      · cases h
      · cases h
    dsimp only
    unfold runDirect
    dsimp only
    have h1 := hyes .DIRECT (Or.inl hr)
    have h2 := hkeep .DIRECT hr
    split_ifs <;> first | exact h1 | exact h2

/-- **C114, the end of the climb.** If at round `j`, while climbing or following a path, the vehicle is at or above the altitude of its goal, the climb is over: as long as the vehicle stays armed and in
offboard mode, the generator is not in the climbing mode in any later round - also not for a new goal that is higher (the climb comes once, after take-off). -/
theorem C114_climb_ends (r : Rounds Q s0 n pre A S t m) (u : Uninit) (l : Launch) (es : List NodeEvent) (h0 : loopM (nodeStep Q) (nodeInit u l) es = some s0)
    (hst : ∀ i ≤ n, newestState (es ++ pre i) = (true, .offboard)) (j : ℕ) (hj : j ≤ n)
    (hlook : (A j).gen.1 = .TRY_PATH ∨ (A j).gen.1 = .ALTITUDE_CHANGE) (habove : (A j).goals.goal.val.z ≤ (newestPose u (es ++ pre j)).1.z) :
    ∀ i, j < i → i ≤ n → (A i).gen.1 ≠ .ALTITUDE_CHANGE ∧ (m i).velocity = V3.nan := by
  have hair : ∀ i ≤ n, ∀ g a b d, (newestInput u (es ++ pre i) g a b d).airborne = true := by
    intro i hi g a b d
    show ((newestState (es ++ pre i)).1 && decide ((newestState (es ++ pre i)).2 ≠ .none)) = true
    rw [hst i hi]; rfl
  have hnav : ∀ i ≤ n, ∀ g a b d, (newestInput u (es ++ pre i) g a b d).nav = .offboard := by
    intro i hi g a b d
    show (newestState (es ++ pre i)).2 = _
    rw [hst i hi]
  have key : ∀ i, j < i → i ≤ n → (A i).gen.1 ≠ .ALTITUDE_CHANGE ∧ (A i).gen.2.reach_altitude_offboard = true ∧ (A i).gen.2.smoothed_loc.isSome := by
    intro i hji
    induction i, (show j + 1 ≤ i from hji) using Nat.le_induction with
    | base =>
      intro hi
      obtain ⟨f1, f2, -, f4⟩ := r.flags j (by omega)
      obtain ⟨c1, -⟩ := r.cycle u l es h0 j hj
      obtain ⟨k1, k2⟩ := reach_noted (A j).gen (newestInput u (es ++ pre j) (A j).goals.goal.val (A j).goals.is_land (A j).goals.is_takeoff (A j).goals.desired_velocity) (t j) rfl
        (Or.inr ⟨hnav j hj _ _ _ _, habove, hlook⟩)
      rw [f1, f2, f4, c1]
      refine ⟨?_, k1, k2⟩
      have hno : ¬ AltitudeNeeded (newestPose u (es ++ pre j)).1.z (A j).goals.goal.val.z (newestState (es ++ pre j)).2 (A j).goals.is_takeoff (A j).goals.is_land
          (reachedBefore (A j).gen.2 (newestInput u (es ++ pre j) (A j).goals.goal.val (A j).goals.is_land (A j).goals.is_takeoff (A j).goals.desired_velocity)) := by
        rw [hst j hj]
        rintro (⟨-, -, h⟩ | h | ⟨h, -⟩ | ⟨h, -⟩ | h | ⟨h, -⟩)
        · linarith
        all_goals cases h
      have hstay : ¬ (newestInput u (es ++ pre j) (A j).goals.goal.val (A j).goals.is_land (A j).goals.is_takeoff (A j).goals.desired_velocity).stay = true := by
        unfold newestInput; simp
      rw [C37_next_state]
      have hno' : ¬ AltitudeNeeded (newestInput u (es ++ pre j) (A j).goals.goal.val (A j).goals.is_land (A j).goals.is_takeoff (A j).goals.desired_velocity).position.z
          (newestInput u (es ++ pre j) (A j).goals.goal.val (A j).goals.is_land (A j).goals.is_takeoff (A j).goals.desired_velocity).goal.z
          (newestInput u (es ++ pre j) (A j).goals.goal.val (A j).goals.is_land (A j).goals.is_takeoff (A j).goals.desired_velocity).nav
          (newestInput u (es ++ pre j) (A j).goals.goal.val (A j).goals.is_land (A j).goals.is_takeoff (A j).goals.desired_velocity).is_takeoff
          (newestInput u (es ++ pre j) (A j).goals.goal.val (A j).goals.is_land (A j).goals.is_takeoff (A j).goals.desired_velocity).is_land
          (reachedBefore (A j).gen.2 (newestInput u (es ++ pre j) (A j).goals.goal.val (A j).goals.is_land (A j).goals.is_takeoff (A j).goals.desired_velocity)) := hno
      rcases hlook with hl | hl <;> rw [hl] <;> dsimp only
      · rw [if_neg hstay, if_neg hno']
        split_ifs <;> simp
      · rw [if_neg hstay, if_neg hno']
        simp
    | succ i hji' ih =>
      intro hi
      obtain ⟨i1, i2, i3⟩ := ih (by omega) (by omega)
      obtain ⟨f1, f2, -, f4⟩ := r.flags i (by omega)
      obtain ⟨c1, -⟩ := r.cycle u l es h0 i (by omega)
      set I := newestInput u (es ++ pre i) (A i).goals.goal.val (A i).goals.is_land (A i).goals.is_takeoff (A i).goals.desired_velocity with hI
      have hrb : reachedBefore (A i).gen.2 I = true := by unfold reachedBefore; rw [hair i (by omega), i2, i3]; rfl
      obtain ⟨k1, k2⟩ := reach_noted (A i).gen I (t i) rfl (Or.inl hrb)
      rw [f1, f2, f4, c1]
      refine ⟨?_, k1, k2⟩
      have hno : ¬ AltitudeNeeded I.position.z I.goal.z I.nav I.is_takeoff I.is_land (reachedBefore (A i).gen.2 I) := by
        rw [hrb, hnav i (by omega)]
        rintro (⟨-, h, -⟩ | h | ⟨h, -⟩ | ⟨h, -⟩ | h | ⟨h, -⟩)
        all_goals cases h
      have hstay : ¬ I.stay = true := by rw [hI]; unfold newestInput; simp
      rw [C37_next_state]
      cases hm : (A i).gen.1 with
      | ALTITUDE_CHANGE => exact absurd hm i1
      | _ => dsimp only; simp only [if_neg hno, if_neg hstay]; first | (split_ifs <;> simp; done) | simp
  intro i hji hi
  obtain ⟨k1, -, -⟩ := key i hji hi
  refine ⟨k1, ?_⟩
  rw [(r.cycle u l es h0 i hi).2]
  dsimp only
  exact (C37_linear_velocity (A i).gen _ (t i)).1 (Or.inl k1)

end

/-- **C114, when the altitude counts as reached.** In every run: if the generator has noted that the altitude was reached, then a setpoint was computed while the vehicle was in offboard mode at or above the
altitude of its goal, and every setpoint since then while it was armed. -/
theorem C114_reached_means (u : Uninit) (l : Launch) (es : List NodeEvent) : ∀ s, loopM (nodeStep Q) (nodeInit u l) es = some s →
    s.gen.2.reach_altitude_offboard = true →
    ∃ before now after x, es = before ++ .send now :: after ∧ loopM (nodeStep Q) (nodeInit u l) before = some x ∧
      (newestState before).2 = .offboard ∧ x.goals.goal.val.z ≤ (newestPose u before).1.z ∧
      ∀ b t c y y', after = b ++ .send t :: c → loopM (nodeStep Q) (nodeInit u l) (before ++ .send now :: b) = some y → nodeStep Q y (.send t) = some y' →
        y.sent.length < y'.sent.length → (newestState (before ++ .send now :: b)).1 = true := by
  induction es using List.reverseRecOn with
  | nil =>
    intro s h hr
    obtain rfl := Option.some.inj h
    cases hr
  | append_singleton es e ih =>
    intro s' h hr
    obtain ⟨s, h1, h2⟩ := loopM_snoc h
    rcases flags_step h2 with ⟨f1, -, f3, -⟩ | hlen
    · rw [f3] at hr
      obtain ⟨before, now, after, x, e1, e2, e3, e4, e5⟩ := ih s h1 hr
      refine ⟨before, now, after ++ [e], x, by rw [e1]; simp, e2, e3, e4, ?_⟩
      intro b t c y y' hb hy hy' hl
      rcases List.eq_nil_or_concat c with rfl | ⟨c', e', rfl⟩
      · have := (List.append_inj' hb rfl)
        obtain ⟨rfl, hee⟩ := this
        obtain rfl := (List.cons.inj hee).1
        rw [← e1, h1] at hy
        obtain rfl := Option.some.inj hy
        rw [h2] at hy'
        obtain rfl := Option.some.inj hy'
        rw [f1] at hl
        exact absurd hl (lt_irrefl _)
      · rw [List.concat_eq_append] at hb
        have hb' : after ++ [e] = (b ++ .send t :: c') ++ [e'] := by rw [hb]; simp
        exact e5 b t c' y y' (List.append_inj' hb' rfl).1 hy hy' hl
    · cases e with
      | send now =>
        obtain ⟨a1, a2⟩ := C91_message u l es s s' now h1 h2
        by_cases ha : now - newestPlan es ≤ 1 / 2 ∨ now - l.start ≤ 5
        swap
        · rw [(a2 ha).2] at hlen; exact absurd hlen (lt_irrefl _)
        obtain ⟨b1, -⟩ := a1 ha
        rw [b1] at hr
        set I := newestInput u es s.goals.goal.val s.goals.is_land s.goals.is_takeoff s.goals.desired_velocity with hI
        obtain ⟨-, a2', -, a4', a5', -, -, -, -, -, -, -, -, -, -, a16', -⟩ := wgStart_spec s.gen.2 I now
        obtain ⟨al, re, sc, q1, q2⟩ := wgRun_out s.gen.1 (wgStart s.gen.2 I now)
        have hre : re = true := by
          have : (wgRun s.gen.1 (wgStart s.gen.2 I now)).2.reach_altitude_offboard = true := hr
          rw [q1] at this
          exact this
        rcases q2 hre with hq | ⟨hq1, hq2⟩
        · rw [a16'] at hq
          unfold reachedBefore at hq
          rw [Bool.and_eq_true, Bool.and_eq_true] at hq
          obtain ⟨before, now', after, x, e1, e2, e3, e4, e5⟩ := ih s h1 hq.2
          refine ⟨before, now', after ++ [.send now], x, by rw [e1]; simp, e2, e3, e4, ?_⟩
          intro b t c y y' hb hy hy' hl
          rcases List.eq_nil_or_concat c with rfl | ⟨c', e', rfl⟩
          · obtain ⟨rfl, hee⟩ := (List.append_inj' hb rfl)
            rw [← e1]
            have : (newestState es).1 = true := by
              have h7 : ((newestState es).1 && decide ((newestState es).2 ≠ .none)) = true := hq.1.1
              rw [Bool.and_eq_true] at h7
              exact h7.1
            exact this
          · rw [List.concat_eq_append] at hb
            have hb' : after ++ [.send now] = (b ++ .send t :: c') ++ [e'] := by rw [hb]; simp
            exact e5 b t c' y y' (List.append_inj' hb' rfl).1 hy hy' hl
        · rw [a5'] at hq1
          rw [a4', a2'] at hq2
          refine ⟨es, now, [], s, rfl, h1, hq1, hq2, ?_⟩
          intro b t c y y' hb
          exact absurd hb (by simp)
      | _ => rw [C91_only_the_command_loop_sends s s' _ (by intro t ht; cases ht) h2] at hlen; exact absurd hlen (lt_irrefl _)

end Avoidance
