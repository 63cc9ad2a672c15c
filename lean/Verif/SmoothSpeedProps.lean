import Verif.ClimbProps

/-!
# How fast the published position moves (C116)

With smoothing, the default, the published position is the state of a filter that is fed with position and velocity of the vehicle.
-/

namespace Avoidance
variable {Q : PriorityQueue (Candidate ℝ) Candidate.lt}

/-! ## The state of the filter between two rounds -/

theorem smoothed_step {s s' : NodeSt} {e : NodeEvent} (h : nodeStep Q s e = some s') :
    (s'.sent = s.sent ∧ s'.gen.2.smoothed_vel = s.gen.2.smoothed_vel) ∨ s.sent.length < s'.sent.length := by
  cases e with
  | send t =>
    unfold nodeStep at h
    dsimp only at h
    split_ifs at h
    obtain rfl := Option.some.inj h
    obtain ⟨a1, a2⟩ := sendStep_active s t
    by_cases ha : t - s.last_wp_time ≤ 1 / 2 ∨ t - s.start_time ≤ 5
    · obtain ⟨b1, b2, -⟩ := a1 ha
      refine Or.inr ?_
      rw [b2]; simp
    · obtain ⟨b1, b2, -⟩ := a2 ha
      exact Or.inl ⟨b2, by rw [b1]⟩
  | planStart f t =>
    unfold nodeStep at h
    dsimp only at h
    split_ifs at h
    rw [Option.map_eq_some_iff] at h
    obtain ⟨pl, -, rfl⟩ := h
    exact Or.inl ⟨rfl, rfl⟩
  | poll t =>
    unfold nodeStep at h
    dsimp only at h
    rw [Option.bind_eq_some_iff] at h
    obtain ⟨t0, -, h⟩ := h
    split_ifs at h <;> obtain rfl := Option.some.inj h <;> exact Or.inl ⟨rfl, rfl⟩
  | config c a b t =>
    unfold nodeStep at h
    dsimp only at h
    split_ifs at h
    obtain rfl := Option.some.inj h
    exact Or.inl ⟨rfl, rfl⟩
  | planEnd t =>
    unfold nodeStep at h
    dsimp only at h
    split_ifs at h
    obtain rfl := Option.some.inj h
    exact Or.inl ⟨rfl, rfl⟩
  | timer t =>
    unfold nodeStep at h
    dsimp only at h
    split_ifs at h
    obtain rfl := Option.some.inj h
    exact Or.inl ⟨rfl, rfl⟩
  | _ => obtain rfl := Option.some.inj h; exact Or.inl ⟨rfl, rfl⟩

theorem smoothed_run (ms : List NodeEvent) : ∀ x y : NodeSt, loopM (nodeStep Q) x ms = some y →
    x.sent.length ≤ y.sent.length ∧ (y.sent.length = x.sent.length → y.gen.2.smoothed_vel = x.gen.2.smoothed_vel) := by
  induction ms using List.reverseRecOn with
  | nil => intro x y h; obtain rfl := Option.some.inj h; exact ⟨le_rfl, fun _ => rfl⟩
  | append_singleton ms e ih =>
    intro x y h
    obtain ⟨z, z1, z2⟩ := loopM_snoc h
    obtain ⟨i1, i2⟩ := ih x z z1
    rcases smoothed_step z2 with ⟨h1, h2⟩ | h1
    · rw [h1, h2]; exact ⟨i1, i2⟩
    · exact ⟨by omega, fun h => by omega⟩

section
variable {s0 : NodeSt} {n : ℕ} {pre : ℕ → List NodeEvent} {A S : ℕ → NodeSt} {t : ℕ → ℝ} {m : ℕ → SentMsg}

theorem Rounds.smoothed (r : Rounds Q s0 n pre A S t m) (i : ℕ) (hi : i < n) : (A (i + 1)).gen.2.smoothed_vel = (S i).gen.2.smoothed_vel := by
  obtain ⟨B, hB⟩ := r.next i hi
  have h1 := r.upTo (i + 1) (by omega)
  rw [hB, loopM_append', r.upTo i (by omega)] at h1
  have h2 : loopM (nodeStep Q) (A i) (.send (t i) :: B) = loopM (nodeStep Q) (S i) B := by
    show (nodeStep Q (A i) (.send (t i))).bind _ = _
    rw [r.round i (by omega)]
    rfl
  have h1 : loopM (nodeStep Q) (A i) (.send (t i) :: B) = some (A (i + 1)) := h1
  rw [h2] at h1
  exact (smoothed_run B _ _ h1).2 (by rw [r.only i hi])

/-- The clock of the generator is that of the previous round. -/
theorem Rounds.clock (r : Rounds Q s0 n pre A S t m) (u : Uninit) (l : Launch) (es : List NodeEvent) (h0 : loopM (nodeStep Q) (nodeInit u l) es = some s0) (j : ℕ) (hj : j < n) :
    (A (j + 1)).gen.2.current_time = t j := by
  rw [(r.time j hj).1, (r.cycle u l es h0 j (by omega)).1]
  obtain ⟨al, re, sc, ho⟩ := wgCycle_out (A j).gen (newestInput u (es ++ pre j) (A j).goals.goal.val (A j).goals.is_land (A j).goals.is_takeoff (A j).goals.desired_velocity) (t j)
  rw [ho]
  dsimp only
  rw [(getPathMsg_frame _ _).current_time]
  cases (A j).gen.1
  · rfl
  · exact (altTarget_frame _).2.2.2.2.2.2.2.2.2.2.2.2.1
  · rfl
  · rfl

/-! ## Specification -/

/-- Smoothing is on, with the parameters `P` (horizontal) and `Pz` (vertical), in all rounds. -/
structure Smooths (P Pz : ℝ) (es : List NodeEvent) (n : ℕ) (pre : ℕ → List NodeEvent) : Prop where
  on : 1 / 100 ≤ P ∧ 1 / 100 ≤ Pz
  set : ∀ i ≤ n, newestSmoothing (es ++ pre i) = (P, Pz)

/-- From round 1 on the vehicle is armed and in a mode known to the node. -/
def Airborne (es : List NodeEvent) (n : ℕ) (pre : ℕ → List NodeEvent) : Prop :=
  ∀ i, 1 ≤ i → i ≤ n → (newestState (es ++ pre i)).1 = true ∧ (newestState (es ++ pre i)).2 ≠ .none

/-- Two points are within `E` of each other, along each axis. -/
def Within (E : ℝ) (a b : V3 ℝ) : Prop := |a.x - b.x| ≤ E ∧ |a.y - b.y| ≤ E ∧ |a.z - b.z| ≤ E

/-! ## One round of the filter -/

theorem filter_at (r : Rounds Q s0 n pre A S t m) (u : Uninit) (l : Launch) (es : List NodeEvent) (h0 : loopM (nodeStep Q) (nodeInit u l) es = some s0)
    {P Pz : ℝ} (hs : Smooths P Pz es n pre) (i : ℕ) (hi : i ≤ n) (hl : (A i).gen.2.auto_land = false) :
    let I := newestInput u (es ++ pre i) (A i).goals.goal.val (A i).goals.is_land (A i).goals.is_takeoff (A i).goals.desired_velocity
    let f := filterStart (A i).gen.2 I
    let dt := cycleTime (A i).gen.2 (t i)
    let wanted := if ((m i).adapted.minus (effectiveGoal (A i).gen.1 I)).norm < 1 / 10 then ⟨0, 0, 0⟩ else newestVelocity u (es ++ pre i)
    ∃ q, (m i).position = V3.fin q ∧ (S i).gen.2.smoothed_loc = some q ∧
      DampedStep P dt (m i).adapted.x wanted.x f.1.x f.2.x q.x (S i).gen.2.smoothed_vel.x ∧
      DampedStep P dt (m i).adapted.y wanted.y f.1.y f.2.y q.y (S i).gen.2.smoothed_vel.y ∧
      DampedStep Pz dt (m i).adapted.z wanted.z f.1.z f.2.z q.z (S i).gen.2.smoothed_vel.z := by
  dsimp only
  obtain ⟨c1, c2⟩ := r.cycle u l es h0 i hi
  have hrun : loopM (nodeStep Q) (nodeInit u l) (es ++ pre i) = some (A i) := by rw [loopM_append', h0]; exact r.upTo i hi
  have ks := (nodeKnows u l _ _ hrun).smoothing
  rw [hs.set i hi] at ks
  have k1 : (A i).gen.2.smoothing_speed_xy = P := congrArg Prod.fst ks
  have k2 : (A i).gen.2.smoothing_speed_z = Pz := congrArg Prod.snd ks
  obtain ⟨q, s, d1, d2, d3, d4, d5, d6⟩ := C39_filter_law (A i).gen (newestInput u (es ++ pre i) (A i).goals.goal.val (A i).goals.is_land (A i).goals.is_takeoff (A i).goals.desired_velocity)
    (t i) hl (by rw [k1]; exact hs.on.1) (by rw [k2]; exact hs.on.2)
  rw [k1] at d1 d2
  rw [k2] at d3
  rw [c1, c2, d6]
  exact ⟨q, d4, d5, d1, d2, d3⟩

/-- From one published position to the next. -/
theorem filter_round (r : Rounds Q s0 n pre A S t m) (u : Uninit) (l : Launch) (es : List NodeEvent) (h0 : loopM (nodeStep Q) (nodeInit u l) es = some s0)
    {P Pz : ℝ} (hs : Smooths P Pz es n pre) (ha : Airborne es n pre) (hl : NoLanding (es ++ pre n)) (i : ℕ) (hi : i < n) (ht : t i < t (i + 1)) :
    let I := newestInput u (es ++ pre (i + 1)) (A (i + 1)).goals.goal.val (A (i + 1)).goals.is_land (A (i + 1)).goals.is_takeoff (A (i + 1)).goals.desired_velocity
    let wanted := if ((m (i + 1)).adapted.minus (effectiveGoal (A (i + 1)).gen.1 I)).norm < 1 / 10 then ⟨0, 0, 0⟩ else newestVelocity u (es ++ pre (i + 1))
    ∃ q q', (m i).position = V3.fin q ∧ (m (i + 1)).position = V3.fin q' ∧
      DampedStep P (t (i + 1) - t i) (m (i + 1)).adapted.x wanted.x q.x (S i).gen.2.smoothed_vel.x q'.x (S (i + 1)).gen.2.smoothed_vel.x ∧
      DampedStep P (t (i + 1) - t i) (m (i + 1)).adapted.y wanted.y q.y (S i).gen.2.smoothed_vel.y q'.y (S (i + 1)).gen.2.smoothed_vel.y ∧
      DampedStep Pz (t (i + 1) - t i) (m (i + 1)).adapted.z wanted.z q.z (S i).gen.2.smoothed_vel.z q'.z (S (i + 1)).gen.2.smoothed_vel.z := by
  dsimp only
  have land : ∀ j ≤ n, (A j).gen.2.auto_land = false := by
    intro j hj
    obtain ⟨⟨R, hR⟩, -⟩ := r.prefix (n - j) j (by omega)
    refine (no_landing u l (es ++ pre j) (A j) (by rw [loopM_append', h0]; exact r.upTo j hj) ?_).2.2
    rw [hR, ← List.append_assoc] at hl
    exact ⟨fun a hm => hl.1 a (List.mem_append_left _ hm), fun x hm => hl.2 x (List.mem_append_left _ hm)⟩
  obtain ⟨q, q1, q2, -⟩ := filter_at r u l es h0 hs i hi.le (land i hi.le)
  obtain ⟨q', q1', q2', d1, d2, d3⟩ := filter_at r u l es h0 hs (i + 1) hi (land (i + 1) hi)
  have hf : filterStart (A (i + 1)).gen.2 (newestInput u (es ++ pre (i + 1)) (A (i + 1)).goals.goal.val (A (i + 1)).goals.is_land (A (i + 1)).goals.is_takeoff
      (A (i + 1)).goals.desired_velocity) = (q, (S i).gen.2.smoothed_vel) := by
    unfold filterStart
    rw [(r.flags i hi).2.2.2, q2, r.smoothed i hi]
    dsimp only
    rw [if_neg]
    rintro (h | h)
    · have : ((newestState (es ++ pre (i + 1))).1 && decide ((newestState (es ++ pre (i + 1))).2 ≠ .none)) = false := h
      obtain ⟨a1, a2⟩ := ha (i + 1) (by omega) hi
      rw [a1, Bool.true_and, decide_eq_false_iff_not] at this
      exact this a2
    · rw [land (i + 1) hi] at h; cases h
  have hdt : cycleTime (A (i + 1)).gen.2 (t (i + 1)) = t (i + 1) - t i := by
    unfold cycleTime
    rw [r.clock u l es h0 i hi, if_pos ht]
  rw [hf, hdt] at d1 d2 d3
  exact ⟨q, q', q1, q1', d1, d2, d3⟩

theorem axis_bound {P dt a w q s q' s' V E W p : ℝ} (hP : 0 < P) (hdt : 0 < dt) (hslow : 2 * Real.sqrt P * dt ≤ 1) (h : DampedStep P dt a w q s q' s')
    (hw : |w| ≤ V) (hp : |p - q| ≤ E) (ha : |a - p| ≤ W) (hs : |s| ≤ V + Real.sqrt P / 2 * (E + W)) : |s'| ≤ V + Real.sqrt P / 2 * (E + W) := by
  have hr : 0 < Real.sqrt P := Real.sqrt_pos.mpr hP
  have hsq : Real.sqrt P * Real.sqrt P = P := Real.mul_self_sqrt hP.le
  set B := V + Real.sqrt P / 2 * (E + W) with hB
  have e : s' = (1 - 2 * Real.sqrt P * dt) * s + dt * (P * ((a - p) + (p - q)) + 2 * Real.sqrt P * w) := by rw [h.1]; ring
  have h1 : |(1 - 2 * Real.sqrt P * dt) * s| ≤ (1 - 2 * Real.sqrt P * dt) * B := by
    rw [abs_mul, abs_of_nonneg (by linarith)]
    exact mul_le_mul_of_nonneg_left hs (by linarith)
  have h2 : |dt * (P * ((a - p) + (p - q)) + 2 * Real.sqrt P * w)| ≤ dt * (P * (W + E) + 2 * Real.sqrt P * V) := by
    rw [abs_mul, abs_of_pos hdt]
    refine mul_le_mul_of_nonneg_left ?_ hdt.le
    refine (abs_add_le _ _).trans (add_le_add ?_ ?_)
    · rw [abs_mul, abs_of_pos hP]
      exact mul_le_mul_of_nonneg_left ((abs_add_le _ _).trans (add_le_add ha hp)) hP.le
    · rw [abs_mul, abs_of_pos (by linarith)]
      exact mul_le_mul_of_nonneg_left hw (by linarith)
  have h3 : (1 - 2 * Real.sqrt P * dt) * B + dt * (P * (W + E) + 2 * Real.sqrt P * V) = B := by
    rw [hB]
    linear_combination (-dt * (E + W)) * hsq
  rw [e]
  calc _ ≤ _ := abs_add_le _ _
    _ ≤ _ := add_le_add h1 h2
    _ = B := h3

theorem abs_le_norm (v : V3 ℝ) : |v.x| ≤ v.norm ∧ |v.y| ≤ v.norm ∧ |v.z| ≤ v.norm := by
  unfold V3.norm V3.dot
  refine ⟨?_, ?_, ?_⟩ <;> refine Real.abs_le_sqrt ?_ <;> nlinarith [sq_nonneg v.x, sq_nonneg v.y, sq_nonneg v.z]

/-- **C116, the bound.** While smoothing is on, no landing is asked for and the setpoints are not too far apart in time, let the vehicle be never faster than `V` and never farther than `E` from the position
published before, along each axis; let the speeds of all plans be at most `W`. Then along each axis the published position moves at most with `V + √P/2·(E + W)`, from any round on for which that holds. -/
theorem C116_bounded (r : Rounds Q s0 n pre A S t m) (u : Uninit) (l : Launch) (es : List NodeEvent) (h0 : loopM (nodeStep Q) (nodeInit u l) es = some s0)
    (P Pz V E W : ℝ) (hs : Smooths P Pz es n pre) (ha : Airborne es n pre) (hl : NoLanding (es ++ pre n))
    (ht : ∀ i < n, t i < t (i + 1)) (hslow : ∀ i < n, 2 * Real.sqrt P * (t (i + 1) - t i) ≤ 1 ∧ 2 * Real.sqrt Pz * (t (i + 1) - t i) ≤ 1)
    (hW : 2 ≤ W) (hu : ∀ x, u.cruise_velocity = some x → 0 ≤ x ∧ x ≤ W) (hwithin : PlansWithin W l (es ++ pre n))
    (hV : ∀ i ≤ n, Within V (newestVelocity u (es ++ pre i)) ⟨0, 0, 0⟩)
    (hE : ∀ i < n, ∃ q, (m i).position = V3.fin q ∧ Within E (newestPose u (es ++ pre (i + 1))).1 q)
    (k : ℕ) (hbase : ∃ q q', (m k).position = V3.fin q ∧ (m (k + 1)).position = V3.fin q' ∧
      |q'.x - q.x| ≤ (t (k + 1) - t k) * (V + Real.sqrt P / 2 * (E + W)) ∧ |q'.y - q.y| ≤ (t (k + 1) - t k) * (V + Real.sqrt P / 2 * (E + W)) ∧
      |q'.z - q.z| ≤ (t (k + 1) - t k) * (V + Real.sqrt Pz / 2 * (E + W))) (i : ℕ) (hki : k ≤ i) (hi : i < n) :
    ∃ q q', (m i).position = V3.fin q ∧ (m (i + 1)).position = V3.fin q' ∧
      |q'.x - q.x| ≤ (t (i + 1) - t i) * (V + Real.sqrt P / 2 * (E + W)) ∧ |q'.y - q.y| ≤ (t (i + 1) - t i) * (V + Real.sqrt P / 2 * (E + W)) ∧
      |q'.z - q.z| ≤ (t (i + 1) - t i) * (V + Real.sqrt Pz / 2 * (E + W)) := by
  have hP : 0 < P := by linarith [hs.on.1]
  have hPz : 0 < Pz := by linarith [hs.on.2]
  have conv : ∀ d x B : ℝ, 0 < d → (|d * x| ≤ d * B ↔ |x| ≤ B) := by
    intro d x B hd
    rw [abs_mul, abs_of_pos hd]
    exact mul_le_mul_iff_right₀ hd
  have key : ∀ i, k ≤ i → i < n → |(S (i + 1)).gen.2.smoothed_vel.x| ≤ V + Real.sqrt P / 2 * (E + W) ∧ |(S (i + 1)).gen.2.smoothed_vel.y| ≤ V + Real.sqrt P / 2 * (E + W) ∧
      |(S (i + 1)).gen.2.smoothed_vel.z| ≤ V + Real.sqrt Pz / 2 * (E + W) := by
    intro i hki
    induction i, hki using Nat.le_induction with
    | base =>
      intro hk
      obtain ⟨q, q', b1, b2, b3, b4, b5⟩ := hbase
      obtain ⟨p, p', f1, f2, f3, f4, f5⟩ := filter_round r u l es h0 hs ha hl k hk (ht k hk)
      rw [f1] at b1
      rw [f2] at b2
      obtain rfl := fin_inj b1
      obtain rfl := fin_inj b2
      have hd : 0 < t (k + 1) - t k := by linarith [ht k hk]
      rw [f3.2, add_sub_cancel_left, conv _ _ _ hd] at b3
      rw [f4.2, add_sub_cancel_left, conv _ _ _ hd] at b4
      rw [f5.2, add_sub_cancel_left, conv _ _ _ hd] at b5
      exact ⟨b3, b4, b5⟩
    | succ i hki ih =>
      intro hi
      obtain ⟨i1, i2, i3⟩ := ih (by omega)
      obtain ⟨p, p', f1, -, f3, f4, f5⟩ := filter_round r u l es h0 hs ha hl (i + 1) hi (ht (i + 1) hi)
      obtain ⟨q, e1, e2, e3, e4⟩ := hE (i + 1) hi
      rw [f1] at e1
      obtain rfl := fin_inj e1
      obtain ⟨⟨R, hR⟩, -⟩ := r.prefix (n - (i + 1 + 1)) (i + 1 + 1) (by omega)
      have hwi : PlansWithin W l (es ++ pre (i + 1 + 1)) := fun a f x b e => hwithin a f x (b ++ R) (by rw [hR, ← List.append_assoc, e]; simp)
      have hli : NoLanding (es ++ pre (i + 1 + 1)) := by
        rw [hR, ← List.append_assoc] at hl
        exact ⟨fun a hm => hl.1 a (List.mem_append_left _ hm), fun x hm => hl.2 x (List.mem_append_left _ hm)⟩
      obtain ⟨w, -, -⟩ := C92_setpoint_partial W hW u l (es ++ pre (i + 1 + 1)) (A (i + 1 + 1)) (S (i + 1 + 1)) (t (i + 1 + 1))
        (by rw [loopM_append', h0]; exact r.upTo _ hi) (r.round _ hi) (m (i + 1 + 1)) (r.sends _ hi) hu hwi hli
      obtain ⟨w1, w2, w3⟩ := abs_le_norm ((m (i + 1 + 1)).adapted.minus (newestPose u (es ++ pre (i + 1 + 1))).1)
      have hd : 0 < t (i + 1 + 1) - t (i + 1) := by linarith [ht (i + 1) hi]
      obtain ⟨v1, v2, v3⟩ := hV (i + 1 + 1) hi
      rw [show (⟨0, 0, 0⟩ : V3 ℝ).x = 0 from rfl, sub_zero] at v1
      rw [show (⟨0, 0, 0⟩ : V3 ℝ).y = 0 from rfl, sub_zero] at v2
      rw [show (⟨0, 0, 0⟩ : V3 ℝ).z = 0 from rfl, sub_zero] at v3
      have hV0 : 0 ≤ V := (abs_nonneg _).trans v1
      refine ⟨axis_bound hP hd (hslow _ hi).1 f3 ?_ e2 (w1.trans w) i1, axis_bound hP hd (hslow _ hi).1 f4 ?_ e3 (w2.trans w) i2, axis_bound hPz hd (hslow _ hi).2 f5 ?_ e4 (w3.trans w) i3⟩ <;>
        split_ifs <;> first | assumption | (rw [abs_zero]; exact hV0)
  obtain ⟨p, p', f1, f2, f3, f4, f5⟩ := filter_round r u l es h0 hs ha hl i hi (ht i hi)
  obtain ⟨k1, k2, k3⟩ := key i hki hi
  have hd : 0 < t (i + 1) - t i := by linarith [ht i hi]
  refine ⟨p, p', f1, f2, ?_, ?_, ?_⟩
  · rw [f3.2, add_sub_cancel_left, conv _ _ _ hd]; exact k1
  · rw [f4.2, add_sub_cancel_left, conv _ _ _ hd]; exact k2
  · rw [f5.2, add_sub_cancel_left, conv _ _ _ hd]; exact k3

/-- The vehicle does exactly as it is told: at each round it is at the position published in the round before, and it reports the velocity with which the published position moved there. -/
structure Follows (u : Uninit) (es : List NodeEvent) (n : ℕ) (pre : ℕ → List NodeEvent) (t : ℕ → ℝ) (m : ℕ → SentMsg) : Prop where
  there : ∀ i < n, (m i).position = V3.fin (newestPose u (es ++ pre (i + 1))).1
  speed : ∀ i, i + 1 < n → (newestPose u (es ++ pre (i + 1 + 1))).1 =
    (newestPose u (es ++ pre (i + 1))).1.plus (V3.smul (t (i + 1) - t i) (newestVelocity u (es ++ pre (i + 1 + 1))))

/-- The waypoint of a climb before smoothing, from the third round on. -/
theorem climb_adapted (r : Rounds Q s0 n pre A S t m) (u : Uninit) (l : Launch) (es : List NodeEvent) (h0 : loopM (nodeStep Q) (nodeInit u l) es = some s0)
    {h : ℝ} (ho : OffboardTo h es n pre A) (hnot : (A 0).gen.2.reach_altitude_offboard = false)
    (V c : ℝ) (hV : 2 ≤ V) (hc0 : 0 ≤ c) (hc2 : c ≤ 2)
    (hu : ∀ x, u.cruise_velocity = some x → c ≤ x ∧ x ≤ V) (hwithin : PlansWithin V l (es ++ pre n)) (hfrom : PlansFrom c l (es ++ pre n))
    (i : ℕ) (h2 : 2 ≤ i) (hi : i ≤ n) (hlow : ∀ j ≤ i, (newestPose u (es ++ pre j)).1.z < h) :
    let p := (newestPose u (es ++ pre i)).1
    let d := h - p.z
    (A i).gen.1 = .ALTITUDE_CHANGE ∧
    ∃ k : ℝ, 0 ≤ k ∧ k ≤ d ∧ (m i).adapted = ⟨p.x, p.y, p.z + k⟩ ∧ ∀ tau, 0 < tau → tau ≤ t i - t (i - 1) → advance (tau / (9 / 10 + tau)) c d ≤ k := by
  dsimp only
  obtain ⟨b1, -, b3, b4⟩ := climb_mode r u l es h0 ho hnot i hi (fun j hj => hlow j hj.le)
  have hmode := b3 h2
  have hland := b4 (by omega) hmode
  obtain ⟨⟨R, hR⟩, -⟩ := r.prefix (n - i) i (by omega)
  have hwi : PlansWithin V l (es ++ pre i) := fun a f x b e => hwithin a f x (b ++ R) (by rw [hR, ← List.append_assoc, e]; simp)
  have hfm : PlansFrom c l (es ++ pre i) := fun a f x b e => hfrom a f x (b ++ R) (by rw [hR, ← List.append_assoc, e]; simp)
  have hu' : ∀ x, u.cruise_velocity = some x → 0 ≤ x ∧ x ≤ V := fun x hx => ⟨hc0.trans (hu x hx).1, (hu x hx).2⟩
  have hrun : loopM (nodeStep Q) (nodeInit u l) (es ++ pre i) = some (A i) := by rw [loopM_append', h0]; exact r.upTo i hi
  have hsp := (C92_speed_partial V hV u l _ _ hrun hu' hwi).1
  have hcr := gen_cruise_from c u l _ _ hrun hc2 V (fun x hx => (hu x hx).1) hwi hfm
  obtain ⟨-, hm⟩ := r.cycle u l es h0 i hi
  have hgen : (A i).gen = (.ALTITUDE_CHANGE, (A i).gen.2) := by rw [← hmode]
  rw [hgen] at hm
  set I := newestInput u (es ++ pre i) (A i).goals.goal.val (A i).goals.is_land (A i).goals.is_takeoff (A i).goals.desired_velocity with hI
  have hn : I.nav = .offboard := by show (newestState (es ++ pre i)).2 = _; rw [ho.state i hi]
  have ha : I.airborne = true := by
    show ((newestState (es ++ pre i)).1 && decide ((newestState (es ++ pre i)).2 ≠ .none)) = true
    rw [ho.state i hi]; rfl
  have Ig : I.goal.z = h := ho.height i hi
  have hz : I.position.z < I.goal.z := by rw [Ig]; exact hlow i le_rfl
  obtain ⟨k, k0, k1, k2, -, k4⟩ := climb_cycle (A i).gen.2 I (t i) hland hsp hn ha hz c hc0 hcr
  rw [Ig] at k1 k4
  refine ⟨hmode, k, k0, k1, by rw [hm]; exact k2, fun tau ht hle => k4 tau ht ?_⟩
  obtain ⟨j, rfl⟩ : ∃ j, i = j + 1 := ⟨i - 1, by omega⟩
  rw [r.clock u l es h0 j (by omega)]
  exact hle

/-- **C116 (violated): ever faster.** Expected: the published position moves no faster than the speed asked for, at most `V`. But the filter takes the velocity of the vehicle as the velocity wanted and so
does not brake a vehicle that does exactly as it is told: in a climb (offboard mode, smoothing on) every round makes the published position faster by at least `tau·Pz·a·c` - wherever the goal is horizontally and
whatever plans arrive, until the vehicle is about `V` metres below the altitude of the goal. -/
theorem C116_ever_faster_violated (r : Rounds Q s0 n pre A S t m) (u : Uninit) (l : Launch) (es : List NodeEvent) (h0 : loopM (nodeStep Q) (nodeInit u l) es = some s0)
    {h : ℝ} (ho : OffboardTo h es n pre A) (hnot : (A 0).gen.2.reach_altitude_offboard = false) (hl : NoLanding (es ++ pre n))
    (P Pz : ℝ) (hs : Smooths P Pz es n pre) (V c tau : ℝ) (hV : 2 ≤ V) (hc0 : 0 ≤ c) (hc2 : c ≤ 2) (htau : 0 < tau)
    (hu : ∀ x, u.cruise_velocity = some x → c ≤ x ∧ x ≤ V) (hwithin : PlansWithin V l (es ++ pre n)) (hfrom : PlansFrom c l (es ++ pre n))
    (hpace : ∀ i < n, tau ≤ t (i + 1) - t i) (fl : Follows u es n pre t m)
    (hup : 1 < n → (newestPose u (es ++ pre 1)).1.z ≤ (newestPose u (es ++ pre 2)).1.z) (i : ℕ) (hi : i + 1 < n) (hfar : ∀ j ≤ i + 1, (newestPose u (es ++ pre j)).1.z + V + 1 / 10 ≤ h) :
    let p := fun i => (newestPose u (es ++ pre i)).1
    let a := tau / (9 / 10 + tau)
    (t (i + 1) - t i) * ((i : ℝ) * (tau * Pz * a * c)) ≤ (p (i + 1 + 1)).z - (p (i + 1)).z := by
  intro p a
  have hpos : ∀ i < n, 0 < t (i + 1) - t i := fun i hi => htau.trans_le (hpace i hi)
  have hair : Airborne es n pre := fun i _ hi => by rw [ho.state i hi]; exact ⟨rfl, fun h => by cases h⟩
  have ha0 : 0 ≤ a := by show 0 ≤ tau / (9 / 10 + tau); positivity
  have ha1 : a ≤ 1 := by show tau / (9 / 10 + tau) ≤ 1; rw [div_le_one (by linarith)]; linarith
  have hPz : 0 < Pz := by linarith [hs.on.2]
  -- the velocity of the filter is that of the vehicle one round later
  have hvel : ∀ i, i + 1 < n → (p (i + 1 + 1)).z - (p (i + 1)).z = (t (i + 1) - t i) * (S (i + 1)).gen.2.smoothed_vel.z ∧
      (newestVelocity u (es ++ pre (i + 1 + 1))).z = (S (i + 1)).gen.2.smoothed_vel.z := by
    intro i hi
    obtain ⟨q, q', f1, f2, -, -, f5⟩ := filter_round r u l es h0 hs hair hl i (by omega) (by linarith [hpos i (by omega)])
    rw [fl.there i (by omega)] at f1
    rw [fl.there (i + 1) (by omega)] at f2
    have f1 := fin_inj f1
    have f2 := fin_inj f2
    have e1 : (p (i + 1 + 1)).z - (p (i + 1)).z = (t (i + 1) - t i) * (S (i + 1)).gen.2.smoothed_vel.z := by
      show (newestPose u (es ++ pre (i + 1 + 1))).1.z - (newestPose u (es ++ pre (i + 1))).1.z = _
      rw [f1, f2, f5.2]; ring
    refine ⟨e1, ?_⟩
    have e2 := fl.speed i (by omega)
    have e3 : (p (i + 1 + 1)).z - (p (i + 1)).z = (t (i + 1) - t i) * (newestVelocity u (es ++ pre (i + 1 + 1))).z := by
      show (newestPose u (es ++ pre (i + 1 + 1))).1.z - (newestPose u (es ++ pre (i + 1))).1.z = _
      rw [e2]; unfold V3.plus V3.smul; dsimp only; ring
    exact mul_left_cancel₀ (hpos i (by omega)).ne' (e3.symm.trans e1)
  have key : ∀ i, i + 1 < n → (∀ j ≤ i + 1, (p j).z + V + 1 / 10 ≤ h) → (i : ℝ) * (tau * Pz * a * c) ≤ (S (i + 1)).gen.2.smoothed_vel.z := by
    intro i
    induction i with
    | zero =>
      intro hi _
      have h1 := (hvel 0 hi).1
      have h2 : 0 ≤ (t (0 + 1) - t 0) * (S (0 + 1)).gen.2.smoothed_vel.z := by
        rw [← h1]
        have := hup (by omega)
        show 0 ≤ (newestPose u (es ++ pre 2)).1.z - (newestPose u (es ++ pre 1)).1.z
        linarith
      have h3 := nonneg_of_mul_nonneg_right h2 (hpos 0 (by omega))
      simpa using h3
    | succ i ih =>
      intro hi hfar
      have h1 := ih (by omega) (fun j hj => hfar j (by omega))
      obtain ⟨q, q', f1, -, -, -, f5⟩ := filter_round r u l es h0 hs hair hl (i + 1) (by omega) (by linarith [hpos (i + 1) (by omega)])
      rw [fl.there (i + 1) (by omega)] at f1
      obtain rfl := fin_inj f1
      have hlow : ∀ j ≤ i + 1 + 1, (newestPose u (es ++ pre j)).1.z < h := fun j hj => by
        have : (newestPose u (es ++ pre j)).1.z + V + 1 / 10 ≤ h := hfar j hj
        linarith
      obtain ⟨hmode, k, k0, k1, k2, k3⟩ := climb_adapted r u l es h0 ho hnot V c hV hc0 hc2 hu hwithin hfrom (i + 1 + 1) (by omega) (by omega) hlow
      have k3 := k3 tau htau (hpace (i + 1) (by omega))
      have hd : V + 1 / 10 ≤ h - (newestPose u (es ++ pre (i + 1 + 1))).1.z := by
        have : (newestPose u (es ++ pre (i + 1 + 1))).1.z + V + 1 / 10 ≤ h := hfar (i + 1 + 1) le_rfl
        linarith
      have hk : a * c ≤ k := by
        unfold advance at k3
        rw [if_pos (by linarith), min_eq_left] at k3
        · exact k3
        · have : tau / (9 / 10 + tau) * c ≤ 1 * 2 := mul_le_mul ha1 hc2 hc0 zero_le_one
          linarith
      obtain ⟨⟨R, hR⟩, -⟩ := r.prefix (n - (i + 1 + 1)) (i + 1 + 1) (by omega)
      have hwi : PlansWithin V l (es ++ pre (i + 1 + 1)) := fun a f x b e => hwithin a f x (b ++ R) (by rw [hR, ← List.append_assoc, e]; simp)
      have hli : NoLanding (es ++ pre (i + 1 + 1)) := by
        rw [hR, ← List.append_assoc] at hl
        exact ⟨fun a hm => hl.1 a (List.mem_append_left _ hm), fun x hm => hl.2 x (List.mem_append_left _ hm)⟩
      obtain ⟨w, -, -⟩ := C92_setpoint_partial V hV u l (es ++ pre (i + 1 + 1)) (A (i + 1 + 1)) (S (i + 1 + 1)) (t (i + 1 + 1))
        (by rw [loopM_append', h0]; exact r.upTo _ (by omega)) (r.round _ (by omega)) (m (i + 1 + 1)) (r.sends _ (by omega)) (fun x hx => ⟨hc0.trans (hu x hx).1, (hu x hx).2⟩) hwi hli
      have w3 := (abs_le_norm ((m (i + 1 + 1)).adapted.minus (newestPose u (es ++ pre (i + 1 + 1))).1)).2.2.trans w
      have hkV : k ≤ V := by
        rw [k2] at w3
        have e : (V3.minus (⟨(newestPose u (es ++ pre (i + 1 + 1))).1.x, (newestPose u (es ++ pre (i + 1 + 1))).1.y, (newestPose u (es ++ pre (i + 1 + 1))).1.z + k⟩ : V3 ℝ)
          (newestPose u (es ++ pre (i + 1 + 1))).1).z = k := by unfold V3.minus; dsimp only; ring
        rw [e, abs_of_nonneg k0] at w3
        exact w3
      rw [if_neg, (hvel i (by omega)).2] at f5
      · have e5 := f5.1
        rw [k2] at e5
        have e6 : (S (i + 1 + 1)).gen.2.smoothed_vel.z = (S (i + 1)).gen.2.smoothed_vel.z + (t (i + 1 + 1) - t (i + 1)) * (Pz * k) := by
          rw [e5]; dsimp only; ring
        rw [e6]
        have h4 : tau * (Pz * (a * c)) ≤ (t (i + 1 + 1) - t (i + 1)) * (Pz * k) :=
          mul_le_mul (hpace (i + 1) (by omega)) (mul_le_mul_of_nonneg_left hk hPz.le) (by positivity) (hpos (i + 1) (by omega)).le
        push_cast
        linarith
      · rw [not_lt]
        refine le_trans ?_ (abs_le_norm _).2.2
        rw [hmode, k2]
        have e : (effectiveGoal .ALTITUDE_CHANGE (newestInput u (es ++ pre (i + 1 + 1)) (A (i + 1 + 1)).goals.goal.val (A (i + 1 + 1)).goals.is_land (A (i + 1 + 1)).goals.is_takeoff
            (A (i + 1 + 1)).goals.desired_velocity)).z = h := by
          unfold effectiveGoal
          split_ifs
          · exact ho.height (i + 1 + 1) (by omega)
          · exact ho.height (i + 1 + 1) (by omega)
        unfold V3.minus
        rw [e]
        dsimp only
        rw [abs_sub_comm]
        exact le_trans (by linarith) (le_abs_self _)
  rw [(hvel i hi).1]
  exact mul_le_mul_of_nonneg_left (key i hi hfar) (hpos i (by omega)).le

end

end Avoidance
