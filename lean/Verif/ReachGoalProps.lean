import Verif.ClearViewProps
import Mathlib.Analysis.SpecialFunctions.Complex.Arg
import Mathlib.Analysis.SpecialFunctions.Trigonometric.Angle

/-!
# A vehicle that follows its setpoints gets to the goal (C112)

The local planner node in a closed loop with a vehicle that flies some part of the way to each setpoint and turns to the yaw asked for.
-/

namespace Avoidance
variable {Q : PriorityQueue (Candidate ℝ) Candidate.lt}

/-! ## Specification -/

/-- Consecutive rounds of the command loop that send a setpoint, with everything that happens in between: `pre i` are the events before round `i` (counted from the
state `s0`), `A i` and `S i` the states before and after it, `t i` its time and `m i` its message; no other message is sent in between. -/
structure Rounds (Q : PriorityQueue (Candidate ℝ) Candidate.lt) (s0 : NodeSt) (n : ℕ) (pre : ℕ → List NodeEvent) (A S : ℕ → NodeSt) (t : ℕ → ℝ)
    (m : ℕ → SentMsg) : Prop where
  upTo : ∀ i ≤ n, loopM (nodeStep Q) s0 (pre i) = some (A i)
  round : ∀ i ≤ n, nodeStep Q (A i) (.send (t i)) = some (S i)
  sends : ∀ i ≤ n, (S i).sent = (A i).sent ++ [m i]
  next : ∀ i < n, ∃ B, pre (i + 1) = pre i ++ .send (t i) :: B
  only : ∀ i < n, (A (i + 1)).sent = (S i).sent

/-- The vehicle does as it is told: between two rounds it flies at least the part `part` of the way to the published position, straight and not beyond it, and turns to
the published yaw. -/
structure FliesAsTold (u : Uninit) (es : List NodeEvent) (n : ℕ) (pre : ℕ → List NodeEvent) (m : ℕ → SentMsg) (part : ℝ) : Prop where
  moves : ∀ i < n, ∃ f q, part ≤ f ∧ f ≤ 1 ∧ (m i).position = V3.fin q ∧
    (newestPose u (es ++ pre (i + 1))).1 = ((newestPose u (es ++ pre i)).1).plus (V3.smul f (q.minus (newestPose u (es ++ pre i)).1))
  turns : ∀ i < n, ∃ k : ℤ, getYawFromQuaternion (newestPose u (es ++ pre (i + 1))).2 * (Real.pi / 180) = (m i).yaw + 2 * Real.pi * k

/-- All cruise speeds given with plans are at least `c`. -/
def PlansFrom (c : ℝ) (l : Launch) (es : List NodeEvent) : Prop :=
  ∀ pre f t post, es = pre ++ .planStart f t :: post → ∀ cf, newestConfig pre = some cf →
    c ≤ cruiseVelocity ⟨(newestPx4 l pre).acc_hor, (newestPx4 l pre).jerk_max, (newestPx4 l pre).xy_cruise⟩ cf.max_sensor_range (newestMission pre)

/-- How far a setpoint is from the vehicle, at least, when the goal is `d` away: the filter lets the part `a` of a speed through, and `v` is the cruise speed in the direction of flight. -/
noncomputable def advance (a v d : ℝ) : ℝ := if 1 ≤ d then min (a * v) d else if 1 / 10 < d then a * d else a * d ^ 2

/-! ## One cycle of the generator in `DIRECT` -/

theorem direct_advance (s : WgState) (i : WgIn) (now : ℝ) (hl : s.auto_land = false) (h0 : 0 ≤ s.speed) (tau v : ℝ) (ht : 0 < tau)
    (hdt : tau ≤ now - s.current_time)
    (hv : 1 ≤ (i.goal.minus i.position).norm → v ≤ s.planner.cruise_velocity.getD 2 * fovFactor .DIRECT (targetOf .DIRECT (wgStart s i now)))
    (hpos : 1 ≤ (i.goal.minus i.position).norm → 0 ≤ s.planner.cruise_velocity.getD 2 * fovFactor .DIRECT (targetOf .DIRECT (wgStart s i now))) :
    let o := (wgCycle (.DIRECT, s) i now).2
    let d := (i.goal.minus i.position).norm
    ∃ k : ℝ, 0 ≤ k ∧ k ≤ 1 ∧ o.out_adapted = i.position.plus (V3.smul k (i.goal.minus i.position)) ∧ advance (tau / (9 / 10 + tau)) v d ≤ k * d := by
  dsimp only
  obtain ⟨al, re, sc, ho⟩ := wgCycle_out (.DIRECT, s) i now
  obtain ⟨a1, a2, a3, a4, a5, a6, a7, a8, a9, a10, a11, a12, a13, a14, a15, a16, a17, a18, -⟩ := wgStart_spec s i now
  obtain ⟨m1, m2, m3, m4, m5, m6, m7⟩ := targetOf_more .DIRECT (wgStart s i now)
  have hD := goalDistance_eq .DIRECT s i now
  have hp := (targetOf_reach .DIRECT (wgStart s i now)).2.2.2
  have hgo := C37_direct_waypoint s i now
  have hdt' := pathDt_target .DIRECT s i now
  dsimp only at hgo
  rw [ho] at hgo ⊢
  dsimp only at hgo ⊢
  generalize hg : targetOf .DIRECT (wgStart s i now) = g at hgo m1 m2 m3 m4 m5 m6 m7 hD hp hv hpos hdt'
  obtain ⟨s1, s2, s3⟩ := getPathMsg_speed .DIRECT g (by rw [m1, a17, hl])
  rw [hp, a2] at s3
  rw [hD] at s1
  have hDe : goalDistance .DIRECT i = (i.goal.minus i.position).norm := by
    unfold goalDistance; rw [if_neg (by rintro ⟨h, -⟩; cases h)]
  rw [hDe, m4, a1, m2, a18, hdt'] at s1
  have hct : cycleTime s now = now - s.current_time := by
    unfold cycleTime; rw [if_pos (by linarith)]
  rw [hct] at s1
  set T := now - s.current_time with hT
  have hTpos : 0 < T := by linarith
  have ha1 : T / (9 / 10 + T) ≤ 1 := by rw [div_le_one (by linarith)]; linarith
  have ha0 : 0 < T / (9 / 10 + T) := by positivity
  have haa : tau / (9 / 10 + tau) ≤ T / (9 / 10 + T) := by
    rw [div_le_div_iff₀ (by linarith) (by linarith)]; nlinarith
  set a := T / (9 / 10 + T) with ha
  set b := tau / (9 / 10 + tau) with hb
  have hb0 : 0 < b := by positivity
  have hsp : (getPathMsg .DIRECT g).speed ≤ (i.goal.minus i.position).norm := by rw [s1]; exact min_le_right _ _
  rw [s3]
  set w := i.goal.minus i.position with hw
  have hn := V3.norm_nonneg w
  have hv0 : 0 ≤ (getPathMsg .DIRECT g).speed := by
    rw [s1]
    refine le_min ?_ hn
    have h1 : 0 ≤ (if w.norm < 1 then w.norm else s.planner.cruise_velocity.getD 2 * fovFactor .DIRECT g) := by
      split_ifs with hlt
      · exact hn
      · exact hpos (not_lt.mp hlt)
    have := mul_nonneg ha0.le h1
    have := mul_nonneg (by linarith : 0 ≤ 1 - a) h0
    linarith
  have hrest : 0 ≤ (1 - a) * s.speed := mul_nonneg (by linarith) h0
  set x := (getPathMsg .DIRECT g).speed with hx
  have hsub : ∀ a : V3 ℝ, ((i.position.plus a).minus i.position) = a := fun a => by unfold V3.plus V3.minus; cases a; simp
  have hdiv : 0 < w.norm → x / w.norm ≤ 1 := fun h => by rw [div_le_one h]; exact hsp
  unfold advance
  by_cases hnear : w.norm < 1
  · have hg1 : (getPathMsg .DIRECT g).out_goto = i.goal := hgo.1 ⟨hl, hnear⟩
    rw [hg1, ← hw, if_neg (not_le.mpr hnear)]
    rw [if_pos hnear] at s1
    have hlow : b * w.norm ≤ x := by
      rw [s1]
      refine le_min ?_ ?_
      · have := mul_le_mul_of_nonneg_right haa hn
        linarith
      · have : b ≤ 1 := haa.trans ha1
        calc b * w.norm ≤ 1 * w.norm := mul_le_mul_of_nonneg_right this hn
          _ = w.norm := one_mul _
    by_cases hten : w.norm > 1 / 10
    · rw [if_pos hten, V3.smul_normalized (by linarith), if_pos hten]
      refine ⟨x / w.norm, div_nonneg hv0 hn, hdiv (by linarith), rfl, ?_⟩
      rw [div_mul_cancel₀ _ (by linarith)]
      exact hlow
    · rw [if_neg hten, if_neg hten]
      push Not at hten
      refine ⟨x, hv0, by linarith, rfl, ?_⟩
      calc b * w.norm ^ 2 = (b * w.norm) * w.norm := by ring
        _ ≤ x * w.norm := mul_le_mul_of_nonneg_right hlow hn
  · have hg1 := hgo.2 (fun h => hnear h.2)
    push Not at hnear
    rw [if_pos hnear]
    rw [if_neg (not_lt.mpr hnear)] at s1
    have hne : i.goal ≠ i.position := by
      intro e
      rw [hw, e] at hnear
      have : (i.position.minus i.position).norm = 0 := by unfold V3.minus V3.norm V3.dot; simp
      rw [this] at hnear
      linarith
    obtain ⟨q1, q, q0, q2⟩ := hg1.2 hne
    rw [q2, hsub] at q1 ⊢
    rw [← hw] at q1 ⊢
    rw [if_pos (by rw [q1]; norm_num), V3.smul_normalized (by rw [q1]; norm_num), q1]
    rw [V3.norm_smul, abs_of_pos q0] at q1
    refine ⟨x * q, mul_nonneg hv0 q0.le, ?_, ?_, ?_⟩
    · have : q * x ≤ q * w.norm := mul_le_mul_of_nonneg_left hsp q0.le
      linarith
    · unfold V3.smul
      simp only [div_one, mul_assoc]
    · rw [mul_assoc, q1, mul_one, s1]
      refine min_le_min ?_ le_rfl
      have h1 : b * v ≤ a * (s.planner.cruise_velocity.getD 2 * fovFactor .DIRECT g) := by
        calc b * v ≤ b * (s.planner.cruise_velocity.getD 2 * fovFactor .DIRECT g) := mul_le_mul_of_nonneg_left (hv hnear) hb0.le
          _ ≤ _ := mul_le_mul_of_nonneg_right haa (hpos hnear)
      linarith

/-! ## The direction of flight -/

/-- The azimuth of a point is the yaw towards it, up to full turns. -/
theorem azimuth_yaw (w p : V3 ℝ) (h : ¬ (w.x = p.x ∧ w.y = p.y)) :
    ∃ k : ℤ, (cartesianToPolarFCU w p).z = radToDeg * nextYaw p w + 360 * k := by
  have hp := Real.pi_pos
  set dx := w.x - p.x with hdx
  set dy := w.y - p.y with hdy
  have hne : (⟨dy, dx⟩ : ℂ) ≠ 0 := by
    intro e
    have e1 := congrArg Complex.re e
    have e2 := congrArg Complex.im e
    simp only [Complex.zero_re, Complex.zero_im] at e1 e2
    exact h ⟨by linarith, by linarith⟩
  have hi : (⟨dx, dy⟩ : ℂ) = Complex.I * (starRingEnd ℂ) ⟨dy, dx⟩ := by
    apply Complex.ext <;> simp
  have hang : ((Complex.arg ⟨dx, dy⟩ : ℝ) : Real.Angle) = ((Real.pi / 2 : ℝ) : Real.Angle) - ((Complex.arg ⟨dy, dx⟩ : ℝ) : Real.Angle) := by
    rw [hi, Complex.arg_mul_coe_angle Complex.I_ne_zero (by simpa using hne), Complex.arg_I, Complex.arg_conj_coe_angle, sub_eq_add_neg]
  rw [← Real.Angle.coe_sub, Real.Angle.angle_eq_iff_two_pi_dvd_sub] at hang
  obtain ⟨k, hk⟩ := hang
  have hz : (cartesianToPolarFCU w p).z = wrap180 (-(atan2 dx dy * radToDeg) + 90) := by
    unfold cartesianToPolarFCU
    dsimp only
    rw [wrapPolar_cases]
    obtain ⟨-, -, h1, h2, -⟩ := C05_polar_ranges w p
    have he : wrap180 (-(cartesianToPolarHistogram w p).e) = -(cartesianToPolarHistogram w p).e :=
      ((C01_wrap180_canonical _).2 _ (by linarith) (by linarith) ⟨0, by simp⟩).symm
    dsimp only
    rw [he, if_neg (by linarith), if_neg (by linarith)]
    rfl
  obtain ⟨⟨-, -, n, hn⟩, -⟩ := C01_wrap180_canonical (-(atan2 dx dy * radToDeg) + 90)
  refine ⟨-k - n, ?_⟩
  have hyaw : nextYaw p w = Complex.arg ⟨dx, dy⟩ := rfl
  have hat : atan2 dx dy = Complex.arg ⟨dy, dx⟩ := rfl
  have hr : radToDeg * Real.pi = 180 := by unfold radToDeg; field_simp
  rw [hz, hyaw]
  rw [hat] at hn ⊢
  push_cast
  have h3 : radToDeg * Complex.arg ⟨dx, dy⟩ = radToDeg * Real.pi / 2 - radToDeg * Complex.arg ⟨dy, dx⟩ + 2 * (radToDeg * Real.pi) * k := by
    have : Complex.arg ⟨dx, dy⟩ = Real.pi / 2 - Complex.arg ⟨dy, dx⟩ + 2 * Real.pi * k := by linarith
    rw [this]; ring
  rw [hr] at h3
  linarith

/-- A vehicle whose yaw is the yaw towards the waypoint has the waypoint straight ahead. -/
theorem straight_ahead (w p : V3 ℝ) (h : ¬ (w.x = p.x ∧ w.y = p.y)) (pitch yaw : ℝ) (k : ℤ) (hy : yaw = nextYaw p w + 2 * Real.pi * k)
    (hp : |(cartesianToPolarFCU w p).e - pitch| ≤ 90) :
    ∃ e r, wrapPolar ⟨(cartesianToPolarFCU w p).e - pitch, (cartesianToPolarFCU w p).z - radToDeg * yaw, (cartesianToPolarFCU w p).r⟩ = ⟨e, 0, r⟩ := by
  obtain ⟨j, hj⟩ := azimuth_yaw w p h
  obtain ⟨p1, p2⟩ := abs_le.mp hp
  have hr : radToDeg * Real.pi = 180 := by unfold radToDeg; field_simp
  have he : wrap180 ((cartesianToPolarFCU w p).e - pitch) = (cartesianToPolarFCU w p).e - pitch :=
    ((C01_wrap180_canonical _).2 _ (by linarith) (by linarith) ⟨0, by simp⟩).symm
  have hz : wrap180 ((cartesianToPolarFCU w p).z - radToDeg * yaw) = 0 := by
    refine ((C01_wrap180_canonical _).2 0 (by norm_num) (by norm_num) ⟨j - k, ?_⟩).symm
    rw [hj, hy]
    push_cast
    have : radToDeg * (nextYaw p w + 2 * Real.pi * k) = radToDeg * nextYaw p w + 2 * (radToDeg * Real.pi) * k := by ring
    rw [this, hr]
    ring
  refine ⟨(cartesianToPolarFCU w p).e - pitch, (cartesianToPolarFCU w p).r, ?_⟩
  rw [wrapPolar_cases]
  dsimp only
  rw [he, hz, if_neg (by linarith), if_neg (by linarith)]

/-- The yaw towards a waypoint depends only on its direction. -/
theorem nextYaw_dir {p w v : V3 ℝ} {k : ℝ} (hk : 0 < k) (h : w.minus p = V3.smul k v) : nextYaw p w = atan2 v.y v.x := by
  have h1 : w.x - p.x = k * v.x := congrArg V3.x h
  have h2 : w.y - p.y = k * v.y := congrArg V3.y h
  unfold nextYaw atan2
  rw [h1, h2, show (⟨k * v.x, k * v.y⟩ : ℂ) = (k : ℂ) * ⟨v.x, v.y⟩ by apply Complex.ext <;> simp, Complex.arg_real_mul _ hk]

/-- Far from the goal: the waypoint, the factor of the field of view, and the yaw. -/
theorem direct_far (s : WgState) (i : WgIn) (now : ℝ) (hl : s.auto_land = false) (hD : 1 ≤ (i.goal.minus i.position).norm) :
    let o := (wgCycle (.DIRECT, s) i now).2
    let w := o.out_goto
    w = i.position.plus (i.goal.minus i.position).normalized ∧
    fovFactor .DIRECT (targetOf .DIRECT (wgStart s i now)) = (scaleToFOV s.fovs (wrapPolar ⟨(cartesianToPolarFCU w i.position).e - i.pitch,
      (cartesianToPolarFCU w i.position).z - radToDeg * i.yaw, (cartesianToPolarFCU w i.position).r⟩)).getD 0 ∧
    (s.smoothing_speed_xy ≤ 1 / 100 → o.setpoint_yaw = if (i.position.minus w).normXY > 1 / 10 then nextYaw i.position w else i.yaw) := by
  dsimp only
  have hDe : goalDistance .DIRECT i = (i.goal.minus i.position).norm := by
    unfold goalDistance; rw [if_neg (by rintro ⟨h, -⟩; cases h)]
  obtain ⟨-, hy⟩ := C39_heading_at_goal (.DIRECT, s) i now hl
  dsimp only at hy
  rw [hDe] at hy
  have hy := (hy hD).2
  obtain ⟨al, re, sc, ho⟩ := wgCycle_out (.DIRECT, s) i now
  obtain ⟨a1, a2, a3, a4, a5, a6, a7, a8, a9, a10, a11, a12, a13, a14, a15, a16, a17, a18, a19, a20, a21, a22, a23, -⟩ := wgStart_spec s i now
  obtain ⟨m1, m2, m3, m4, m5, m6, m7⟩ := targetOf_more .DIRECT (wgStart s i now)
  obtain ⟨t1, t2, t3, t4, t5, t6, t7⟩ := targetOf_filter .DIRECT (wgStart s i now)
  have hpitch : (wgStart s i now).curr_pitch = i.pitch := by
    unfold wgStart wgUpdate
    rcases ha : i.airborne <;> rcases hs : s.smoothed_loc with _ | l <;> rcases hl : s.auto_land <;>
      simp [ha, hs, hl]
  have tp : (targetOf .DIRECT (wgStart s i now)).curr_pitch = i.pitch := hpitch
  have tg : (targetOf .DIRECT (wgStart s i now)).out_goto = i.position.plus (i.goal.minus i.position).normalized := by
    show (wgStart s i now).position.plus ((wgStart s i now).goal.minus (wgStart s i now).position).normalized = _
    rw [a2, a4]
  have hp := (targetOf_reach .DIRECT (wgStart s i now)).2.2.2
  rw [a2] at hp
  have hgd := goalDistance_eq .DIRECT s i now
  rw [hDe] at hgd
  have hgo : (wgCycle (.DIRECT, s) i now).2.out_goto = i.position.plus (i.goal.minus i.position).normalized := by
    rw [ho]
    dsimp only
    rw [(getPathMsg_speed .DIRECT _ (by rw [m1, a17, hl])).2.1, hgd, if_neg (not_lt.mpr hD), tg]
  rw [hgo]
  refine ⟨rfl, ?_, fun hs => ?_⟩
  · unfold fovFactor
    rw [if_pos (by intro h; cases h), m3, a23, tg, hp, tp, t7, a20]
  · rw [hy]
    have key : ∀ (g : WgState) (dt : ℝ), g.smoothing_speed_xy ≤ 1 / 100 → (nextSmoothYaw .DIRECT dt g).setpoint_yaw =
        if (g.position.minus g.out_goto).normXY > 1 / 10 then nextYaw g.position g.out_goto else g.curr_yaw := by
      intro g dt hg
      unfold nextSmoothYaw
      dsimp only
      rw [if_pos hg]
      rfl
    rw [key _ _ (by rw [t3, a21]; exact hs), tg, hp, t7, a20]

/-! ## Rounds of the node -/

/-- The time of the generator changes only when a message is sent. -/
theorem time_step {s s' : NodeSt} {e : NodeEvent} (h : nodeStep Q s e = some s') :
    (s'.sent = s.sent ∧ s'.gen.2.current_time = s.gen.2.current_time ∧ s'.gen.2.speed = s.gen.2.speed) ∨ s.sent.length < s'.sent.length := by
  cases e with
  | send t =>
    unfold nodeStep at h
    dsimp only at h
    split_ifs at h
    obtain rfl := Option.some.inj h
    obtain ⟨a1, a2⟩ := sendStep_active s t
    by_cases ha : t - s.last_wp_time ≤ 1 / 2 ∨ t - s.start_time ≤ 5
    · obtain ⟨b1, b2, -⟩ := a1 ha
      refine Or.inr ?_
      rw [b2]; simp
    · obtain ⟨b1, b2, -⟩ := a2 ha
      exact Or.inl ⟨b2, by rw [b1], by rw [b1]⟩
  | planStart f t =>
    unfold nodeStep at h
    dsimp only at h
    split_ifs at h
    rw [Option.map_eq_some_iff] at h
    obtain ⟨pl, -, rfl⟩ := h
    exact Or.inl ⟨rfl, rfl, rfl⟩
  | poll t =>
    unfold nodeStep at h
    dsimp only at h
    rw [Option.bind_eq_some_iff] at h
    obtain ⟨t0, -, h⟩ := h
    split_ifs at h <;> obtain rfl := Option.some.inj h <;> exact Or.inl ⟨rfl, rfl, rfl⟩
  | config c a b t =>
    unfold nodeStep at h
    dsimp only at h
    split_ifs at h
    obtain rfl := Option.some.inj h
    exact Or.inl ⟨rfl, rfl, rfl⟩
  | planEnd t =>
    unfold nodeStep at h
    dsimp only at h
    split_ifs at h
    obtain rfl := Option.some.inj h
    exact Or.inl ⟨rfl, rfl, rfl⟩
  | timer t =>
    unfold nodeStep at h
    dsimp only at h
    split_ifs at h
    obtain rfl := Option.some.inj h
    exact Or.inl ⟨rfl, rfl, rfl⟩
  | _ => obtain rfl := Option.some.inj h; exact Or.inl ⟨rfl, rfl, rfl⟩

theorem time_run (ms : List NodeEvent) : ∀ x y : NodeSt, loopM (nodeStep Q) x ms = some y →
    x.sent.length ≤ y.sent.length ∧ (y.sent.length = x.sent.length → y.gen.2.current_time = x.gen.2.current_time ∧ y.gen.2.speed = x.gen.2.speed) := by
  induction ms using List.reverseRecOn with
  | nil => intro x y h; obtain rfl := Option.some.inj h; exact ⟨le_rfl, fun _ => ⟨rfl, rfl⟩⟩
  | append_singleton ms e ih =>
    intro x y h
    obtain ⟨z, z1, z2⟩ := loopM_snoc h
    obtain ⟨i1, i2⟩ := ih x z z1
    rcases time_step z2 with ⟨h1, h2, h3⟩ | h1
    · rw [h1, h2, h3]; exact ⟨i1, i2⟩
    · exact ⟨by omega, fun h => by omega⟩

/-- A round with a clear view, from the third message on. -/
theorem clear_round (u : Uninit) (l : Launch) (es : List NodeEvent) (s0 : NodeSt) (h0 : loopM (nodeStep Q) (nodeInit u l) es = some s0)
    (hidle : s0.planning = false) (hempty : s0.planner.cloud = []) (later : List NodeEvent) (s s' : NodeSt) (now : ℝ)
    (h1 : loopM (nodeStep Q) s0 later = some s) (h2 : nodeStep Q s (.send now) = some s') (m : SentMsg) (hm : s'.sent = s.sent ++ [m])
    (hclear : ClearPlans u es later) (hfree : SendsFree Q s0 (later ++ [.send now])) (hthird : s0.sent.length + 2 ≤ s.sent.length) :
    let i := newestInput u (es ++ later) s.goals.goal.val s.goals.is_land s.goals.is_takeoff s.goals.desired_velocity
    let o := (wgCycle (.DIRECT, s.gen.2) i now).2
    s.gen.2.auto_land = false ∧ m = ⟨now, o.out_position, o.setpoint_yaw, o.out_linear_velocity, o.out_goto, o.out_adapted⟩ ∧
    s'.gen.2.current_time = now ∧ s'.gen = wgCycle (.DIRECT, s.gen.2) i now := by
  have hfree' : SendsFree Q s0 later := fun pre t post sp e' => hfree pre t (post ++ [.send now]) sp (by rw [e']; simp)
  obtain ⟨-, k2, k3⟩ := mode_run u l es s0 h0 hidle hempty later s h1 hclear hfree'
  have hland := k3 hthird
  have hmode : s.gen.1 = .DIRECT := by
    have : cyclesToDirect s.gen.1 = 0 := by omega
    cases hx : s.gen.1 with
    | DIRECT => rfl
    | _ => rw [hx] at this; simp [cyclesToDirect] at this
  have hrun : loopM (nodeStep Q) (nodeInit u l) (es ++ later) = some s := by rw [loopM_append', h0]; exact h1
  obtain ⟨a1, a2⟩ := C91_message u l _ s s' now hrun h2
  by_cases ha : now - newestPlan (es ++ later) ≤ 1 / 2 ∨ now - l.start ≤ 5
  swap
  · rw [(a2 ha).2] at hm
    have := congrArg List.length hm
    simp at this
  obtain ⟨b1, b2⟩ := a1 ha
  rw [b2] at hm
  have hm' := (List.cons.inj (List.append_cancel_left hm)).1
  have hgen : s.gen = (.DIRECT, s.gen.2) := by rw [← hmode]
  rw [hgen] at hm' b1
  refine ⟨hland, hm'.symm, ?_, b1⟩
  rw [b1]
  obtain ⟨al, re, sc, ho⟩ := wgCycle_out (.DIRECT, s.gen.2) (newestInput u (es ++ later) s.goals.goal.val s.goals.is_land s.goals.is_takeoff s.goals.desired_velocity) now
  rw [ho]
  dsimp only
  rw [(getPathMsg_frame .DIRECT _).current_time]
  obtain ⟨c1, c2, c3, c4, c5, c6, c7, c8, c9, c10, -⟩ := wgStart_spec s.gen.2 (newestInput u (es ++ later) s.goals.goal.val s.goals.is_land s.goals.is_takeoff s.goals.desired_velocity) now
  exact c10

/-- On a line to the goal that is not steep, the waypoint is at least 10 cm away horizontally. -/
theorem far_geometry {p g w0 w : V3 ℝ} {c : ℝ} (hc : 0 ≤ c) (h : g.minus p = V3.smul c w0) (hd : 1 ≤ (g.minus p).norm) (hw : OneMetreTowards p g w)
    (hs : w0.norm < 10 * w0.normXY) : ∃ k, 0 < k ∧ w.minus p = V3.smul k w0 ∧ 1 / 10 < (p.minus w).normXY := by
  have hne : g ≠ p := by
    intro e
    rw [e] at hd
    have : (p.minus p).norm = 0 := by unfold V3.minus V3.norm V3.dot; simp
    rw [this] at hd
    linarith
  obtain ⟨q1, q, q0, q2⟩ := hw.2 hne
  have hn : (g.minus p).norm = c * w0.norm := by rw [h, V3.norm_smul, abs_of_nonneg hc]
  have hn0 := V3.norm_nonneg w0
  have hcpos : 0 < c := by
    rcases hc.lt_or_eq with h | h
    · exact h
    · rw [hn, ← h] at hd; norm_num at hd
  have hwp : w.minus p = V3.smul (q * c) w0 := by
    have : w.minus p = V3.smul q (g.minus p) := by rw [q2]; unfold V3.plus V3.minus V3.smul; simp
    rw [this, h]
    unfold V3.smul
    simp only [mul_assoc]
  have hk : 0 < q * c := mul_pos q0 hcpos
  refine ⟨q * c, hk, hwp, ?_⟩
  rw [hwp, V3.norm_smul, abs_of_pos hk] at q1
  have hxy : (p.minus w).normXY = q * c * w0.normXY := by
    have e1 : w.x - p.x = q * c * w0.x := congrArg V3.x hwp
    have e2 : w.y - p.y = q * c * w0.y := congrArg V3.y hwp
    unfold V3.normXY V3.minus
    dsimp only
    rw [show (p.x - w.x) * (p.x - w.x) + (p.y - w.y) * (p.y - w.y) = (q * c) ^ 2 * (w0.x * w0.x + w0.y * w0.y) by
      rw [← neg_sub w.x, ← neg_sub w.y, e1, e2]; ring, Real.sqrt_mul (sq_nonneg _), Real.sqrt_sq hk.le]
  rw [hxy]
  have := mul_lt_mul_of_pos_left hs hk
  linarith

/-- What is left of the way after a part `f` of the way to a setpoint on the line. -/
theorem shrink {p p' g q : V3 ℝ} {k f : ℝ} (h1 : q = p.plus (V3.smul k (g.minus p))) (h2 : p' = p.plus (V3.smul f (q.minus p))) :
    g.minus p' = V3.smul (1 - f * k) (g.minus p) := by
  rw [h2, h1]
  unfold V3.plus V3.minus V3.smul
  simp only [V3.mk.injEq]
  refine ⟨by ring, by ring, by ring⟩

theorem fin_inj {a b : V3 ℝ} (h : a.fin = b.fin) : a = b := by
  unfold V3.fin at h
  rw [V3.mk.injEq] at h
  obtain ⟨h1, h2, h3⟩ := h
  cases a; cases b
  simp only [Option.some_inj] at h1 h2 h3
  rw [h1, h2, h3]

/-- The cruise speed the generator was given is at least `c`. -/
theorem gen_cruise_from (c : ℝ) (u : Uninit) (l : Launch) (es : List NodeEvent) (s : NodeSt) (h : loopM (nodeStep Q) (nodeInit u l) es = some s)
    (hc2 : c ≤ 2) (V : ℝ) (hu : ∀ x, u.cruise_velocity = some x → c ≤ x) (hp : PlansWithin V l es) (hf : PlansFrom c l es) :
    c ≤ s.gen.2.planner.cruise_velocity.getD 2 := by
  cases hx : s.gen.2.planner.cruise_velocity with
  | none => exact hc2
  | some x =>
    show c ≤ x
    rcases planEnd_split es with hn | ⟨before, t, after, e, ha⟩
    · rw [(C91_plan_used u l es s h).1 hn] at hx
      exact hu x hx
    · obtain ⟨pre, frame, t0, mid, g1, -, g3⟩ := C92_planned_speed u l es s h before after t e ha
      have e' : es = pre ++ .planStart frame t0 :: (mid ++ .planEnd t :: after) := by rw [e, g1]; simp
      obtain ⟨-, cf, q1, q2, q3⟩ := hp pre frame t0 _ e'
      rw [g3 cf q1] at hx
      rw [← Option.some.inj hx]
      exact hf pre frame t0 _ e' cf q1

/-! ## The rounds as a whole -/

section
variable {s0 : NodeSt} {n : ℕ} {pre : ℕ → List NodeEvent} {A S : ℕ → NodeSt} {t : ℕ → ℝ} {m : ℕ → SentMsg}

theorem Rounds.prefix (r : Rounds Q s0 n pre A S t m) : ∀ k i, i + k = n → (∃ R, pre n = pre i ++ R) ∧ ∃ R, pre n ++ [.send (t n)] = pre i ++ .send (t i) :: R := by
  intro k
  induction k with
  | zero => intro i hi; have : i = n := by omega
            subst this; exact ⟨⟨[], by simp⟩, [], rfl⟩
  | succ k ih =>
    intro i hi
    obtain ⟨⟨R, hR⟩, R', hR'⟩ := ih (i + 1) (by omega)
    obtain ⟨B, hB⟩ := r.next i (by omega)
    refine ⟨⟨.send (t i) :: B ++ R, by rw [hR, hB]; simp⟩, B ++ .send (t (i + 1)) :: R', by rw [hR', hB]; simp⟩

theorem Rounds.length (r : Rounds Q s0 n pre A S t m) : ∀ i ≤ n, (A i).sent.length = (A 0).sent.length + i := by
  intro i
  induction i with
  | zero => intro _; rfl
  | succ i ih =>
    intro hi
    rw [r.only i (by omega), r.sends i (by omega), List.length_append, ih (by omega), List.length_singleton]
    omega

theorem Rounds.time (r : Rounds Q s0 n pre A S t m) (i : ℕ) (hi : i < n) : (A (i + 1)).gen.2.current_time = (S i).gen.2.current_time ∧
    (A (i + 1)).gen.2.speed = (S i).gen.2.speed := by
  obtain ⟨B, hB⟩ := r.next i hi
  have h1 := r.upTo (i + 1) (by omega)
  rw [hB, loopM_append', r.upTo i (by omega)] at h1
  have h2 : loopM (nodeStep Q) (A i) (.send (t i) :: B) = loopM (nodeStep Q) (S i) B := by
    show (nodeStep Q (A i) (.send (t i))).bind _ = _
    rw [r.round i (by omega)]
    rfl
  have h1 : loopM (nodeStep Q) (A i) (.send (t i) :: B) = some (A (i + 1)) := h1
  rw [h2] at h1
  exact (time_run B _ _ h1).2 (by rw [r.only i hi])

end

/-! ## The closed loop -/

/-- **C112.** A vehicle in mission mode flies as it is told: between two setpoints it flies at least the part `part` of the way to the published position, straight, and turns to the published
yaw. The view is clear, nothing is remembered, no climb is in progress; the goal, given once, is not changed; setpoints are at least `tau` apart; the goal is not nearly straight above
or below (less than a tenth of the distance is horizontal); no smoothing of positions is configured; and the cameras let at least the part `sigma` of the speed pass straight
ahead. Then the distance to the goal never grows; after the first of these rounds each shortens it by at least a fixed amount, known in advance; and so every distance
`eps` from the goal is reached, after a number of rounds known in advance. -/
theorem C112_reaches_goal_partial (u : Uninit) (l : Launch) (es : List NodeEvent) (s0 : NodeSt) (h0 : loopM (nodeStep Q) (nodeInit u l) es = some s0)
    (hidle : s0.planning = false) (hempty : s0.planner.cloud = []) (n : ℕ) (pre : ℕ → List NodeEvent) (A S : ℕ → NodeSt) (t : ℕ → ℝ) (m : ℕ → SentMsg)
    (r : Rounds Q s0 n pre A S t m) (hthird : s0.sent.length + 2 ≤ (A 0).sent.length)
    (hclear : ClearPlans u es (pre n)) (hfree : SendsFree Q s0 (pre n ++ [.send (t n)]))
    (V c sigma tau part : ℝ) (hV : 2 ≤ V) (hc0 : 0 ≤ c) (hc2 : c ≤ 2) (hsig : 0 ≤ sigma) (htau : 0 < tau) (hpart : 0 ≤ part)
    (hu : ∀ x, u.cruise_velocity = some x → c ≤ x ∧ x ≤ V) (hwithin : PlansWithin V l (es ++ pre n)) (hfrom : PlansFrom c l (es ++ pre n))
    (g : V3 ℝ) (hgoal : ∀ i ≤ n, (A i).goals.goal.val = g) (hsmooth : ∀ i ≤ n, (newestSmoothing (es ++ pre i)).1 < 1 / 100)
    (hpace : ∀ i < n, tau ≤ t (i + 1) - t i)
    (hahead : ∀ i ≤ n, ∀ e ρ, sigma ≤ (scaleToFOV (A i).gen.2.fovs ⟨e, 0, ρ⟩).getD 0)
    (hlevel : ∀ i ≤ n, |(cartesianToPolarFCU (m i).goto (newestPose u (es ++ pre i)).1).e - getPitchFromQuaternion (newestPose u (es ++ pre i)).2| ≤ 90)
    (told : FliesAsTold u es n pre m part)
    (hsteep : (g.minus (newestPose u (es ++ pre 0)).1).norm < 10 * (g.minus (newestPose u (es ++ pre 0)).1).normXY ∨ (g.minus (newestPose u (es ++ pre 0)).1).norm < 1) :
    let d := fun i => (g.minus (newestPose u (es ++ pre i)).1).norm
    let a := tau / (9 / 10 + tau)
    (∀ i < n, d (i + 1) ≤ d i) ∧
    (∀ i, 0 < i → i < n → d (i + 1) ≤ d i - part * advance a (c * sigma) (d i)) ∧
    (∀ eps, 0 < eps → eps ≤ 1 / 10 → 0 < n → d 0 ≤ ((n : ℝ) - 1) * (part * (a * min (c * sigma) (eps ^ 2))) → d n ≤ eps) := by
  intro d a
  have hu' : ∀ x, u.cruise_velocity = some x → 0 ≤ x ∧ x ≤ V := fun x hx => ⟨hc0.trans (hu x hx).1, (hu x hx).2⟩
  have hrun : ∀ i ≤ n, loopM (nodeStep Q) (nodeInit u l) (es ++ pre i) = some (A i) := fun i hi => by rw [loopM_append', h0]; exact r.upTo i hi
  have hcl : ∀ i ≤ n, ClearPlans u es (pre i) := fun i hi => by
    obtain ⟨⟨R, hR⟩, -⟩ := r.prefix (n - i) i (by omega)
    exact fun a f x b e => hclear a f x (b ++ R) (by rw [hR, e]; simp)
  have hfr : ∀ i ≤ n, SendsFree Q s0 (pre i ++ [.send (t i)]) := fun i hi => by
    obtain ⟨-, R, hR⟩ := r.prefix (n - i) i (by omega)
    exact fun a x b sp e => hfree a x (b ++ R) sp (by
      rw [hR, show pre i ++ NodeEvent.send (t i) :: R = (pre i ++ [.send (t i)]) ++ R by simp, e]; simp)
  have hth : ∀ i ≤ n, s0.sent.length + 2 ≤ (A i).sent.length := fun i hi => by rw [r.length i hi]; omega
  have hwi : ∀ i ≤ n, PlansWithin V l (es ++ pre i) := fun i hi => by
    obtain ⟨⟨R, hR⟩, -⟩ := r.prefix (n - i) i (by omega)
    exact fun a f x b e => hwithin a f x (b ++ R) (by rw [hR, ← List.append_assoc, e]; simp)
  have hfm : ∀ i ≤ n, PlansFrom c l (es ++ pre i) := fun i hi => by
    obtain ⟨⟨R, hR⟩, -⟩ := r.prefix (n - i) i (by omega)
    exact fun a f x b e => hfrom a f x (b ++ R) (by rw [hR, ← List.append_assoc, e]; simp)
  -- what each message says
  have hmsg := fun i (hi : i ≤ n) => C110_straight_to_goal_partial u l es s0 h0 hidle hempty (pre i) (A i) (S i) (t i) (r.upTo i hi) (r.round i hi) (m i) (r.sends i hi)
    (hcl i hi) (hfr i hi) (hth i hi)
  have hcyc := fun i (hi : i ≤ n) => clear_round u l es s0 h0 hidle hempty (pre i) (A i) (S i) (t i) (r.upTo i hi) (r.round i hi) (m i) (r.sends i hi)
    (hcl i hi) (hfr i hi) (hth i hi)
  dsimp only at hmsg hcyc
  -- one step
  have hstep : ∀ i < n, ∃ f k : ℝ, part ≤ f ∧ f ≤ 1 ∧ 0 ≤ k ∧ k ≤ 1 ∧
      (m i).adapted = ((newestPose u (es ++ pre i)).1).plus (V3.smul k (g.minus (newestPose u (es ++ pre i)).1)) ∧
      g.minus (newestPose u (es ++ pre (i + 1))).1 = V3.smul (1 - f * k) (g.minus (newestPose u (es ++ pre i)).1) := by
    intro i hi
    obtain ⟨-, -, ⟨k, k1, k2, k0⟩, hpos⟩ := hmsg i hi.le
    obtain ⟨f, q, f1, f2, f3, f4⟩ := told.moves i hi
    have k0 := k0 V hV hu' (hwi i hi.le)
    rw [hgoal i hi.le] at k2
    rw [hpos (Or.inl (hsmooth i hi.le)), k2] at f3
    exact ⟨f, k, f1, f2, k0, k1, k2, shrink (fin_inj f3).symm f4⟩
  have hline : ∀ i ≤ n, ∃ x : ℝ, 0 ≤ x ∧ x ≤ 1 ∧ g.minus (newestPose u (es ++ pre i)).1 = V3.smul x (g.minus (newestPose u (es ++ pre 0)).1) := by
    intro i
    induction i with
    | zero => intro _; exact ⟨1, zero_le_one, le_rfl, by unfold V3.smul; simp⟩
    | succ i ih =>
      intro hi
      obtain ⟨x, x0, x1, hx⟩ := ih (by omega)
      obtain ⟨f, k, f1, f2, k0, k1, -, hk⟩ := hstep i (by omega)
      have hf : f * k ≤ 1 := by nlinarith
      have hf0 : 0 ≤ f * k := mul_nonneg (hpart.trans f1) k0
      refine ⟨(1 - f * k) * x, mul_nonneg (by linarith) x0, by nlinarith, ?_⟩
      rw [hk, hx]
      unfold V3.smul
      simp only [mul_assoc]
  have hmono : ∀ i < n, d (i + 1) ≤ d i := by
    intro i hi
    obtain ⟨f, k, f1, f2, k0, k1, -, hk⟩ := hstep i hi
    have hf : f * k ≤ 1 := by nlinarith
    have hf0 : 0 ≤ f * k := mul_nonneg (hpart.trans f1) k0
    show (g.minus _).norm ≤ (g.minus _).norm
    rw [hk, V3.norm_smul, abs_of_nonneg (by linarith)]
    have := V3.norm_nonneg (g.minus (newestPose u (es ++ pre i)).1)
    nlinarith
  have hdec : ∀ i, 0 < i → i < n → d (i + 1) ≤ d i - part * advance a (c * sigma) (d i) := by
    intro i hi0 hi
    obtain ⟨f, k', f1, f2, k0', k1', had, hk'⟩ := hstep i hi
    obtain ⟨j, rfl⟩ : ∃ j, i = j + 1 := ⟨i - 1, by omega⟩
    obtain ⟨hland, hmi, -, -⟩ := hcyc (j + 1) hi.le
    obtain ⟨hlandj, hmj, htime, -⟩ := hcyc j (by omega)
    rw [hgoal _ hi.le] at hmi
    rw [hgoal _ (by omega)] at hmj
    set I := newestInput u (es ++ pre (j + 1)) g (A (j + 1)).goals.is_land (A (j + 1)).goals.is_takeoff (A (j + 1)).goals.desired_velocity with hI
    set J := newestInput u (es ++ pre j) g (A j).goals.is_land (A j).goals.is_takeoff (A j).goals.desired_velocity with hJ
    have Ip : I.position = (newestPose u (es ++ pre (j + 1))).1 := rfl
    have Ig : I.goal = g := rfl
    have Jp : J.position = (newestPose u (es ++ pre j)).1 := rfl
    have Jg : J.goal = g := rfl
    have hsp := (C92_speed_partial V hV u l _ _ (hrun (j + 1) hi.le) hu' (hwi _ hi.le)).1
    have hcr := gen_cruise_from c u l _ _ (hrun (j + 1) hi.le) hc2 V (fun x hx => (hu x hx).1) (hwi _ hi.le) (hfm _ hi.le)
    have hT : tau ≤ t (j + 1) - (A (j + 1)).gen.2.current_time := by
      rw [(r.time j (by omega)).1, htime]; exact hpace j (by omega)
    -- the factor of the field of view, far from the goal
    have hfov : 1 ≤ (I.goal.minus I.position).norm → sigma ≤ fovFactor .DIRECT (targetOf .DIRECT (wgStart (A (j + 1)).gen.2 I (t (j + 1)))) := by
      intro hfar
      have hdj : 1 ≤ d (j + 1) := hfar
      have hd0 : ∀ i' ≤ n, d i' ≤ d 0 := by
        intro i'
        induction i' with
        | zero => intro _; exact le_rfl
        | succ i' ih => intro hi'; exact (hmono i' (by omega)).trans (ih (by omega))
      have hs : (g.minus (newestPose u (es ++ pre 0)).1).norm < 10 * (g.minus (newestPose u (es ++ pre 0)).1).normXY := by
        rcases hsteep with h | h
        · exact h
        · have := hd0 (j + 1) hi.le
          have h : d 0 < 1 := h
          linarith
      have hfarj : 1 ≤ (J.goal.minus J.position).norm := hdj.trans (hmono j (by omega))
      obtain ⟨x, x0, x1, hx⟩ := hline (j + 1) hi.le
      obtain ⟨y, y0, y1, hy⟩ := hline j (by omega)
      have hwi' := (hmsg (j + 1) hi.le).2.1
      have hwj' := (hmsg j (by omega)).2.1
      rw [hgoal _ hi.le] at hwi'
      rw [hgoal _ (by omega)] at hwj'
      obtain ⟨ki, ki0, hki, hki'⟩ := far_geometry x0 hx hfar (hwi' hfar) hs
      obtain ⟨kj, kj0, hkj, hkj'⟩ := far_geometry y0 hy hfarj (hwj' hfarj) hs
      obtain ⟨-, e2, -⟩ := direct_far (A (j + 1)).gen.2 I (t (j + 1)) hland hfar
      obtain ⟨-, -, e3⟩ := direct_far (A j).gen.2 J (t j) hlandj hfarj
      have hgi : (wgCycle (.DIRECT, (A (j + 1)).gen.2) I (t (j + 1))).2.out_goto = (m (j + 1)).goto := by rw [hmi]
      have hgj : (wgCycle (.DIRECT, (A j).gen.2) J (t j)).2.out_goto = (m j).goto := by rw [hmj]
      have hyj : (wgCycle (.DIRECT, (A j).gen.2) J (t j)).2.setpoint_yaw = (m j).yaw := by rw [hmj]
      rw [hgi] at e2
      rw [hgj, hyj] at e3
      have hsm : (A j).gen.2.smoothing_speed_xy ≤ 1 / 100 := by
        have := (nodeKnows u l _ _ (hrun j (by omega))).smoothing
        have h1 := congrArg Prod.fst this
        rw [show (A j).gen.2.smoothing_speed_xy = _ from h1]
        exact (hsmooth j (by omega)).le
      have e3 := e3 hsm
      rw [if_pos (by rw [Jp]; exact hkj')] at e3
      obtain ⟨z, hz⟩ := told.turns j (by omega)
      have hyaw : I.yaw = nextYaw I.position (m (j + 1)).goto + 2 * Real.pi * z := by
        rw [show I.yaw = getYawFromQuaternion (newestPose u (es ++ pre (j + 1))).2 * (Real.pi / 180) from rfl, hz, e3, Jp, Ip, nextYaw_dir kj0 hkj, nextYaw_dir ki0 hki]
      have hne : ¬ ((m (j + 1)).goto.x = I.position.x ∧ (m (j + 1)).goto.y = I.position.y) := by
        rintro ⟨w1, w2⟩
        rw [← Ip] at hki'
        have : (I.position.minus (m (j + 1)).goto).normXY = 0 := by unfold V3.normXY V3.minus; simp [w1, w2]
        rw [this] at hki'
        norm_num at hki'
      obtain ⟨e, ρ, hw⟩ := straight_ahead (m (j + 1)).goto I.position hne I.pitch I.yaw z hyaw (hlevel (j + 1) hi.le)
      rw [e2, hw]
      exact hahead (j + 1) hi.le e ρ
    have hprod : 1 ≤ (I.goal.minus I.position).norm → c * sigma ≤ (A (j + 1)).gen.2.planner.cruise_velocity.getD 2 *
        fovFactor .DIRECT (targetOf .DIRECT (wgStart (A (j + 1)).gen.2 I (t (j + 1)))) := fun h =>
      mul_le_mul hcr (hfov h) hsig (hc0.trans hcr)
    obtain ⟨k, k0, k1, hk, hadv⟩ := direct_advance (A (j + 1)).gen.2 I (t (j + 1)) hland hsp tau (c * sigma) htau hT hprod
      (fun h => (mul_nonneg hc0 hsig).trans (hprod h))
    have hadm : (wgCycle (.DIRECT, (A (j + 1)).gen.2) I (t (j + 1))).2.out_adapted = (m (j + 1)).adapted := by rw [hmi]
    rw [hadm, had, Ip, Ig] at hk
    rw [Ip, Ig] at hadv
    -- the two descriptions of the setpoint agree
    have hkd : k' * d (j + 1) = k * d (j + 1) := by
      have h1 : V3.smul k' (g.minus (newestPose u (es ++ pre (j + 1))).1) = V3.smul k (g.minus (newestPose u (es ++ pre (j + 1))).1) := by
        have hx := congrArg V3.x hk
        have hy := congrArg V3.y hk
        have hz := congrArg V3.z hk
        unfold V3.plus at hx hy hz
        dsimp only at hx hy hz
        unfold V3.smul at hx hy hz ⊢
        dsimp only at hx hy hz
        rw [V3.mk.injEq]
        exact ⟨add_left_cancel hx, add_left_cancel hy, add_left_cancel hz⟩
      have h2 := congrArg V3.norm h1
      rw [V3.norm_smul, V3.norm_smul, abs_of_nonneg k0, abs_of_nonneg k0'] at h2
      exact h2
    have hf : f * k' ≤ 1 := by nlinarith
    have hd : d (j + 1 + 1) = d (j + 1) - f * (k' * d (j + 1)) := by
      show (g.minus _).norm = _
      rw [hk', V3.norm_smul, abs_of_nonneg (by linarith)]
      show (1 - f * k') * d (j + 1) = _
      ring
    rw [hd, hkd]
    have hkn : 0 ≤ k * d (j + 1) := mul_nonneg k0 (V3.norm_nonneg _)
    have h1 : part * advance a (c * sigma) (d (j + 1)) ≤ part * (k * d (j + 1)) := mul_le_mul_of_nonneg_left hadv hpart
    have h2 : part * (k * d (j + 1)) ≤ f * (k * d (j + 1)) := mul_le_mul_of_nonneg_right f1 hkn
    linarith
  refine ⟨hmono, hdec, ?_⟩
  intro eps he0 he1 hn hlen
  by_contra hnot
  push Not at hnot
  have ha0 : 0 < a := by show 0 < tau / (9 / 10 + tau); positivity
  have ha1 : a ≤ 1 := by show tau / (9 / 10 + tau) ≤ 1; rw [div_le_one (by linarith)]; linarith
  have hback : ∀ k i, i + k = n → eps < d i := by
    intro k
    induction k with
    | zero => intro i hi; have : i = n := by omega
              rw [this]; exact hnot
    | succ k ih => intro i hi; exact (ih (i + 1) (by omega)).trans_le (hmono i (by omega))
  have hcs : 0 ≤ c * sigma := mul_nonneg hc0 hsig
  have hmin0 : 0 ≤ min (c * sigma) (eps ^ 2) := le_min hcs (sq_nonneg _)
  have hmine : min (c * sigma) (eps ^ 2) ≤ eps ^ 2 := min_le_right _ _
  have hadv : ∀ x, eps < x → a * min (c * sigma) (eps ^ 2) ≤ advance a (c * sigma) x := by
    intro x hx
    unfold advance
    split_ifs with h1 h2
    · refine le_min (mul_le_mul_of_nonneg_left (min_le_left _ _) ha0.le) ?_
      have : a * min (c * sigma) (eps ^ 2) ≤ 1 * eps ^ 2 := mul_le_mul ha1 hmine hmin0 zero_le_one
      nlinarith
    · refine mul_le_mul_of_nonneg_left ?_ ha0.le
      nlinarith
    · refine mul_le_mul_of_nonneg_left ?_ ha0.le
      nlinarith
  have hsum : ∀ i, i < n → d (i + 1) ≤ d 0 - i * (part * (a * min (c * sigma) (eps ^ 2))) := by
    intro i
    induction i with
    | zero => intro h; have := hmono 0 h; push_cast; linarith
    | succ i ih =>
      intro h
      have h1 := ih (by omega)
      have h2 := hdec (i + 1) (by omega) h
      have h3 := mul_le_mul_of_nonneg_left (hadv (d (i + 1)) (hback (n - (i + 1)) (i + 1) (by omega))) hpart
      push_cast
      linarith
  obtain ⟨j, rfl⟩ : ∃ j, n = j + 1 := ⟨n - 1, by omega⟩
  have := hsum j (by omega)
  push_cast at hlen
  have h5 := hback 0 (j + 1) (by omega)
  have : d (j + 1) ≤ 0 := by
    have e : ((j : ℝ) + 1 - 1) = j := by ring
    rw [e] at hlen
    linarith
  linarith

/-- A camera that looks forward lets the whole speed pass straight ahead: the hypothesis `hahead` of `C112_reaches_goal_partial` with `sigma = 1`. -/
theorem forward_camera (h v pitch : ℝ) (hh : 0 < h) (hh' : h < 360) (e ρ : ℝ) : (scaleToFOV [(⟨0, pitch, h, v⟩ : FOV ℝ)] ⟨e, 0, ρ⟩).getD 0 = 1 := by
  obtain ⟨s, ⟨b, i⟩, h1, h2, h3, h4, h5, h6, h7⟩ := C13_scaleToFOV [(⟨0, pitch, h, v⟩ : FOV ℝ)] ⟨e, 0, ρ⟩ (by simpa using hh) (by simp)
  obtain ⟨r, hr, -, hrt⟩ := C12_isOnEdge [(⟨0, pitch, h, v⟩ : FOV ℝ)] ⟨e, 0, ρ⟩
  rw [h1]
  show s = 1
  have w1 : wrap180 (0 + h / 2) = h / 2 := ((C01_wrap180_canonical _).2 _ (by linarith) (by linarith) ⟨0, by simp⟩).symm
  have w2 : wrap180 (0 - h / 2) = 0 - h / 2 := ((C01_wrap180_canonical _).2 _ (by linarith) (by linarith) ⟨0, by simp⟩).symm
  have hin : pointInsideYawFOV [(⟨0, pitch, h, v⟩ : FOV ℝ)] ⟨e, 0, ρ⟩ = true := by
    unfold pointInsideYawFOV pointInsideYawFOV1
    dsimp only
    rw [w1, w2, if_pos]
    simp only [Bool.and_eq_true, decide_eq_true_eq]
    constructor <;> linarith
  cases b with
  | false => rw [h5 rfl, if_pos hin]
  | true =>
    rw [h2] at hr
    obtain rfl := Option.some.inj hr
    obtain ⟨n, f, n1, n2, -⟩ := hrt rfl
    obtain ⟨f', f1, f2⟩ := h7 n (by rw [← n1])
    have hf : f' = ⟨0, pitch, h, v⟩ := by
      have := List.mem_of_getElem? f1
      simpa using this
    rw [f2, hf]
    have : angleDifference (0 : ℝ) 0 = 0 := by unfold angleDifference fmod; simp
    dsimp only
    rw [this, abs_zero, min_eq_right (by linarith)]
    simp

/-! ## Goals nearly straight above or below -/

/-- A generator at rest whose direction of flight no camera sees stays at rest. -/
theorem still_cycle (x : PlannerState × WgState) (i : WgIn) (now : ℝ) (hl : x.2.auto_land = false) (h0 : x.2.speed = 0) (hst : x.1 ≠ .ALTITUDE_CHANGE)
    (hD : 1 ≤ (i.goal.minus i.position).norm) (hf : fovFactor x.1 (targetOf x.1 (wgStart x.2 i now)) = 0) :
    (wgCycle x i now).2.speed = 0 ∧ (wgCycle x i now).2.out_adapted = i.position := by
  obtain ⟨al, re, sc, ho⟩ := wgCycle_out x i now
  obtain ⟨a1, a2, a3, a4, a5, a6, a7, a8, a9, a10, a11, a12, a13, a14, a15, a16, a17, a18, -⟩ := wgStart_spec x.2 i now
  obtain ⟨m1, m2, m3, m4, m5, m6, m7⟩ := targetOf_more x.1 (wgStart x.2 i now)
  have hp := (targetOf_reach x.1 (wgStart x.2 i now)).2.2.2
  have hDe : goalDistance x.1 i = (i.goal.minus i.position).norm := by
    unfold goalDistance; rw [if_neg (by rintro ⟨h, -⟩; exact hst h)]
  obtain ⟨s1, s2, s3⟩ := getPathMsg_speed x.1 (targetOf x.1 (wgStart x.2 i now)) (by rw [m1, a17, hl])
  rw [goalDistance_eq, hDe, if_neg (not_lt.mpr hD), hf, m2, a18, h0, mul_zero, mul_zero, mul_zero, add_zero, min_eq_left (by linarith)] at s1
  rw [ho]
  dsimp only
  refine ⟨s1, ?_⟩
  rw [s3, s1, hp, a2]
  unfold V3.plus V3.smul
  simp

/-- **C112, finding.** The goal is at least a metre away but nearly straight above or below - the horizontal part of the way is at most a tenth of it - and the vehicle is at rest.
Then the yaw setpoint stays its own yaw, and if no camera of the vehicle covers the azimuth of that nearly vertical direction, the speed is scaled to zero: every setpoint, for as
long as this lasts, is the position of the vehicle itself and its own yaw. A vehicle that follows its setpoints never moves. -/
theorem C112_steep_goal_violated (u : Uninit) (l : Launch) (es : List NodeEvent) (s0 : NodeSt) (h0 : loopM (nodeStep Q) (nodeInit u l) es = some s0)
    (hidle : s0.planning = false) (hempty : s0.planner.cloud = []) (n : ℕ) (pre : ℕ → List NodeEvent) (A S : ℕ → NodeSt) (t : ℕ → ℝ) (m : ℕ → SentMsg)
    (r : Rounds Q s0 n pre A S t m) (hthird : s0.sent.length + 2 ≤ (A 0).sent.length)
    (hclear : ClearPlans u es (pre n)) (hfree : SendsFree Q s0 (pre n ++ [.send (t n)])) (V : ℝ) (hwithin : PlansWithin V l (es ++ pre n))
    (g p : V3 ℝ) (q : Quat ℝ) (hgoal : ∀ i ≤ n, (A i).goals.goal.val = g) (hsmooth : ∀ i ≤ n, (newestSmoothing (es ++ pre i)).1 < 1 / 100)
    (hpose : ∀ i ≤ n, newestPose u (es ++ pre i) = (p, q)) (hfar : 1 ≤ (g.minus p).norm) (hsteep : 10 * (g.minus p).normXY ≤ (g.minus p).norm)
    (hblind : ∀ i ≤ n, pointInsideYawFOV (A i).gen.2.fovs (wrapPolar ⟨(cartesianToPolarFCU (m i).goto p).e - getPitchFromQuaternion q,
      (cartesianToPolarFCU (m i).goto p).z - getYawFromQuaternion q, (cartesianToPolarFCU (m i).goto p).r⟩) = false)
    (hrest : (A 0).gen.2.speed = 0) :
    ∀ i ≤ n, (m i).position = p.fin ∧ (m i).yaw = getYawFromQuaternion q * (Real.pi / 180) := by
  have hcl : ∀ i ≤ n, ClearPlans u es (pre i) := fun i hi => by
    obtain ⟨⟨R, hR⟩, -⟩ := r.prefix (n - i) i (by omega)
    exact fun a f x b e => hclear a f x (b ++ R) (by rw [hR, e]; simp)
  have hfr : ∀ i ≤ n, SendsFree Q s0 (pre i ++ [.send (t i)]) := fun i hi => by
    obtain ⟨-, R, hR⟩ := r.prefix (n - i) i (by omega)
    exact fun a x b sp e => hfree a x (b ++ R) sp (by
      rw [hR, show pre i ++ NodeEvent.send (t i) :: R = (pre i ++ [.send (t i)]) ++ R by simp, e]; simp)
  have hth : ∀ i ≤ n, s0.sent.length + 2 ≤ (A i).sent.length := fun i hi => by rw [r.length i hi]; omega
  have hwi : ∀ i ≤ n, PlansWithin V l (es ++ pre i) := fun i hi => by
    obtain ⟨⟨R, hR⟩, -⟩ := r.prefix (n - i) i (by omega)
    exact fun a f x b e => hwithin a f x (b ++ R) (by rw [hR, ← List.append_assoc, e]; simp)
  have hrun : ∀ i ≤ n, loopM (nodeStep Q) (nodeInit u l) (es ++ pre i) = some (A i) := fun i hi => by rw [loopM_append', h0]; exact r.upTo i hi
  have key : ∀ i ≤ n, (A i).gen.2.speed = 0 → (S i).gen.2.speed = 0 ∧ (m i).adapted = p ∧ (m i).yaw = getYawFromQuaternion q * (Real.pi / 180) := by
    intro i hi hsp
    obtain ⟨hland, hmi, -, hgen⟩ := clear_round u l es s0 h0 hidle hempty (pre i) (A i) (S i) (t i) (r.upTo i hi) (r.round i hi) (m i) (r.sends i hi)
      (hcl i hi) (hfr i hi) (hth i hi)
    rw [hgoal i hi] at hmi hgen
    set I := newestInput u (es ++ pre i) g (A i).goals.is_land (A i).goals.is_takeoff (A i).goals.desired_velocity with hI
    have Ip : I.position = p := by rw [show I.position = (newestPose u (es ++ pre i)).1 from rfl, hpose i hi]
    have Ig : I.goal = g := rfl
    have Iy : I.yaw = getYawFromQuaternion q * (Real.pi / 180) := by
      rw [show I.yaw = getYawFromQuaternion (newestPose u (es ++ pre i)).2 * (Real.pi / 180) from rfl, hpose i hi]
    have Ipi : I.pitch = getPitchFromQuaternion q := by rw [show I.pitch = getPitchFromQuaternion (newestPose u (es ++ pre i)).2 from rfl, hpose i hi]
    have hfar' : 1 ≤ (I.goal.minus I.position).norm := by rw [Ip, Ig]; exact hfar
    obtain ⟨e1, e2, e3⟩ := direct_far (A i).gen.2 I (t i) hland hfar'
    have hgi : (wgCycle (.DIRECT, (A i).gen.2) I (t i)).2.out_goto = (m i).goto := by rw [hmi]
    have hyi : (wgCycle (.DIRECT, (A i).gen.2) I (t i)).2.setpoint_yaw = (m i).yaw := by rw [hmi]
    have hai : (wgCycle (.DIRECT, (A i).gen.2) I (t i)).2.out_adapted = (m i).adapted := by rw [hmi]
    rw [hgi] at e1 e2
    rw [hgi, hyi] at e3
    have hsm : (A i).gen.2.smoothing_speed_xy ≤ 1 / 100 := by
      have h1 := congrArg Prod.fst (nodeKnows u l _ _ (hrun i hi)).smoothing
      rw [show (A i).gen.2.smoothing_speed_xy = _ from h1]
      exact (hsmooth i hi).le
    have hzero : fovFactor .DIRECT (targetOf .DIRECT (wgStart (A i).gen.2 I (t i))) = 0 := by
      have hr : radToDeg * I.yaw = getYawFromQuaternion q := by
        rw [Iy]; unfold radToDeg; field_simp
      rw [e2, hr, Ip, Ipi]
      have hfo := gen_fovs_ok u l _ _ (hrun i hi) (fun f t hft => by obtain ⟨a, b, e⟩ := List.append_of_mem hft; exact (hwi i hi a f t b e).1)
      obtain ⟨-, ⟨w3, w4⟩, -⟩ := C03_wrapPolar_range ⟨(cartesianToPolarFCU (m i).goto p).e - getPitchFromQuaternion q,
        (cartesianToPolarFCU (m i).goto p).z - getYawFromQuaternion q, (cartesianToPolarFCU (m i).goto p).r⟩
      obtain ⟨s, -, h1, -, -, -, -, h6, -⟩ := C13_scaleToFOV (A i).gen.2.fovs (wrapPolar ⟨(cartesianToPolarFCU (m i).goto p).e - getPitchFromQuaternion q,
        (cartesianToPolarFCU (m i).goto p).z - getYawFromQuaternion q, (cartesianToPolarFCU (m i).goto p).r⟩) (fun f hf => (hfo f hf).1) (fun f hf => by
          have := (hfo f hf).2
          rw [abs_le] at this ⊢
          constructor <;> linarith)
      rw [h1, h6 (hblind i hi)]
      rfl
    obtain ⟨c1, c2⟩ := still_cycle (.DIRECT, (A i).gen.2) I (t i) hland hsp (by intro h; cases h) hfar' hzero
    rw [hai, Ip] at c2
    refine ⟨by rw [hgen]; exact c1, c2, ?_⟩
    have hxy : (I.position.minus (m i).goto).normXY ≤ 1 / 10 := by
      rw [e1, Ip, Ig, V3.normXY]
      have hpos : 0 < (g.minus p).norm := by linarith
      have e : (p.minus (p.plus (g.minus p).normalized)) = V3.smul (-((g.minus p).norm)⁻¹) (g.minus p) := by
        unfold V3.normalized
        rw [if_pos (by
          unfold V3.norm at hpos
          exact Real.sqrt_pos.mp hpos)]
        unfold V3.minus V3.plus V3.smul
        simp only [V3.mk.injEq]
        refine ⟨by ring, by ring, by ring⟩
      rw [e]
      unfold V3.smul
      dsimp only
      set c := ((g.minus p).norm)⁻¹ with hc
      have hc0 : 0 < c := inv_pos.mpr hpos
      rw [show -c * (g.minus p).x * (-c * (g.minus p).x) + -c * (g.minus p).y * (-c * (g.minus p).y) = c ^ 2 * ((g.minus p).x * (g.minus p).x + (g.minus p).y * (g.minus p).y) by ring,
        Real.sqrt_mul (sq_nonneg _), Real.sqrt_sq hc0.le]
      have h1 : c * (g.minus p).norm = 1 := inv_mul_cancel₀ hpos.ne'
      have h2 := mul_le_mul_of_nonneg_left hsteep hc0.le
      rw [h1] at h2
      unfold V3.normXY at h2
      linarith
    rw [e3 hsm, if_neg (not_lt.mpr hxy), Iy]
  have hsp : ∀ i ≤ n, (A i).gen.2.speed = 0 := by
    intro i
    induction i with
    | zero => intro _; exact hrest
    | succ i ih =>
      intro hi
      rw [(r.time i (by omega)).2]
      exact (key i (by omega) (ih (by omega))).1
  intro i hi
  obtain ⟨-, k2, k3⟩ := key i hi (hsp i hi)
  have hmsg := (C110_straight_to_goal_partial u l es s0 h0 hidle hempty (pre i) (A i) (S i) (t i) (r.upTo i hi) (r.round i hi) (m i) (r.sends i hi)
    (hcl i hi) (hfr i hi) (hth i hi)).2.2.2 (Or.inl (hsmooth i hi))
  rw [k2] at hmsg
  exact ⟨hmsg, k3⟩

end Avoidance
