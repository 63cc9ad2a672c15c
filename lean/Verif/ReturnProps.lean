import Verif.LandTakeoffProps

/-!
# Returning to launch (C119)

In the mode `AUTO.RTL` the autopilot sends the vehicle home: the generator first climbs and then flies there.
-/

namespace Avoidance
variable {Q : PriorityQueue (Candidate ℝ) Candidate.lt}

/-- In this round the autopilot returns to launch. -/
def Returns (es : List NodeEvent) (pre : ℕ → List NodeEvent) (i : ℕ) : Prop := (newestState (es ++ pre i)).2 = .auto_rtl

section
variable {s0 : NodeSt} {n : ℕ} {pre : ℕ → List NodeEvent} {A S : ℕ → NodeSt} {t : ℕ → ℝ} {m : ℕ → SentMsg}

theorem Rounds.shorter (r : Rounds Q s0 n pre A S t m) {k : ℕ} (hk : k ≤ n) : Rounds Q s0 k pre A S t m :=
  ⟨fun i hi => r.upTo i (by omega), fun i hi => r.round i (by omega), fun i hi => r.sends i (by omega), fun i hi => r.next i (by omega), fun i hi => r.only i (by omega)⟩

theorem Returns.notLands {i : ℕ} {es : List NodeEvent} (h : Returns es pre i) : ¬ Lands es pre A i := by
  unfold Returns at h
  rintro (h' | h')
  · rw [h] at h'; cases h'
  · rw [h] at h'; cases h'.1

theorem Returns.nav {i : ℕ} {es : List NodeEvent} (h : Returns es pre i) : (newestState (es ++ pre i)).2 ≠ .offboard := by
  rw [h]; intro h; cases h

/-- **C119, the climb.** The autopilot returns to a home that is at least one metre away horizontally; the vehicle is horizontally slow and flies at least the part `part` of the way to each
published position; setpoints are at least `tau` apart and no smoothing is configured. From the third setpoint on, as long as the vehicle is at least 0.8 m below home, every setpoint is straight above the
vehicle, by at least an amount known in advance, so that the vehicle rises straight; and so it leaves that range after a number of rounds known in advance. -/
theorem C119_climbs (r : Rounds Q s0 n pre A S t m) (u : Uninit) (l : Launch) (es : List NodeEvent) (h0 : loopM (nodeStep Q) (nodeInit u l) es = some s0)
    (hrtl : ∀ i ≤ n, Returns es pre i) (hn : (A 0).gen.1 ≠ .ALTITUDE_CHANGE)
    (V c tau part : ℝ) (hV : 2 ≤ V) (hc0 : 0 ≤ c) (hc2 : c ≤ 2) (htau : 0 < tau) (hpart : 0 ≤ part)
    (hu : ∀ x, u.cruise_velocity = some x → c ≤ x ∧ x ≤ V) (hwithin : PlansWithin V l (es ++ pre n)) (hfrom : PlansFrom c l (es ++ pre n))
    (hsmooth : ∀ i ≤ n, (newestSmoothing (es ++ pre i)).1 < 1 / 100) (hslow : ∀ i, 1 ≤ i → i ≤ n → ¬ Fast u es pre i) (hpace : ∀ i < n, tau ≤ t (i + 1) - t i)
    (f : ℕ → ℝ) (fl : FliesTowards u es n pre m f) (hf : ∀ i, 2 ≤ i → i < n → part ≤ f i)
    (home : V3 ℝ) (hg : ∀ i ≤ n, (A i).goals.goal.val = home)
    (hpad : (newestPose u (es ++ pre 1)).1.x = (newestPose u (es ++ pre 2)).1.x ∧ (newestPose u (es ++ pre 1)).1.y = (newestPose u (es ++ pre 2)).1.y)
    (hfar : 1 ≤ (home.minus (newestPose u (es ++ pre 2)).1).normXY) :
    let p := fun i => (newestPose u (es ++ pre i)).1
    let step := tau / (9 / 10 + tau) * min c 1
    (∀ i, 2 ≤ i → i ≤ n → (∀ j ≤ i, (p j).z ≤ home.z - 4 / 5) →
      (p i).x = (p 2).x ∧ (p i).y = (p 2).y ∧ ∃ w, step ≤ w ∧ (m i).position = V3.fin ⟨(p i).x, (p i).y, (p i).z + w⟩ ∧ (i < n → (p i).z + part * step ≤ (p (i + 1)).z)) ∧
    (2 ≤ n → home.z - (p 2).z < ((n : ℝ) - 2) * (part * step) + 4 / 5 → ∃ i ≤ n, home.z - 4 / 5 < (p i).z) := by
  intro p step
  have ha0 : 0 < tau / (9 / 10 + tau) := by positivity
  have ha1 : tau / (9 / 10 + tau) ≤ 1 := by rw [div_le_one (by linarith)]; linarith
  have hmin0 : 0 ≤ min c 1 := le_min hc0 zero_le_one
  have hstep0 : 0 ≤ step := mul_nonneg ha0.le hmin0
  have hround : ∀ i, 2 ≤ i → i ≤ n → (∀ j ≤ i, (p j).z ≤ home.z - 4 / 5) → (p i).x = (p 2).x → (p i).y = (p 2).y →
      ∃ w, step ≤ w ∧ (m i).position = V3.fin ⟨(p i).x, (p i).y, (p i).z + w⟩ := by
    intro i h2 hi hlow hx hy
    obtain ⟨⟨R, hR⟩, -⟩ := r.prefix (n - i) i (by omega)
    have hR : pre n = pre i ++ R := by rw [← hR]
    have hwi : PlansWithin V l (es ++ pre i) := fun a f x b e => hwithin a f x (b ++ R) (by rw [hR, ← List.append_assoc, e]; simp)
    have hfm : PlansFrom c l (es ++ pre i) := fun a f x b e => hfrom a f x (b ++ R) (by rw [hR, ← List.append_assoc, e]; simp)
    obtain ⟨k, k1, k2, kr⟩ := change_round (r.shorter hi) u l es h0
      (fun j hj => Or.inr (Or.inr (Or.inr (Or.inl ⟨hrtl j (by omega), by rw [hg j (by omega)]; exact hlow j hj⟩))))
      (fun j hj => (hrtl j (by omega)).notLands) hn V c hV hc0 hc2 hu hwi hfm (fun j hj => hsmooth j (by omega)) (fun j h1 hj => hslow j h1 (by omega))
    obtain ⟨-, b2, b3, b4, b5, b6, b7⟩ := kr i h2 le_rfl
    have hq : (p k).x = (p 2).x ∧ (p k).y = (p 2).y := by
      rcases (by omega : k = 1 ∨ k = 2) with rfl | rfl
      · exact hpad
      · exact ⟨rfl, rfl⟩
    have hd : 1 ≤ (home.minus (p i)).norm := by
      have e : (home.minus (p i)).normXY = (home.minus (p 2)).normXY := by unfold V3.normXY V3.minus; dsimp only; rw [hx, hy]
      have h3 : (home.minus (p i)).normXY ≤ (home.minus (p i)).norm := by
        unfold V3.normXY V3.norm V3.dot
        exact Real.sqrt_le_sqrt (by nlinarith [mul_self_nonneg (home.minus (p i)).z])
      have h4 : 1 ≤ (home.minus (p 2)).normXY := hfar
      linarith
    obtain ⟨w, w2, w3⟩ := takeoff_aside_cycle (A i).gen.2 (newestInput u (es ++ pre i) (A i).goals.goal.val (A i).goals.is_land (A i).goals.is_takeoff (A i).goals.desired_velocity) (t i) b2 b3
      (hrtl i hi).nav (not_lt.mp (hslow i (by omega) hi)) (by
        dsimp only
        change (if (A i).gen.2.state_changed = true then (newestPose u (es ++ pre i)).1 else ((A i).gen.2.change_altitude_pos.getD (newestPose u (es ++ pre i)).1)).x = (p i).x ∧
          (if (A i).gen.2.state_changed = true then (newestPose u (es ++ pre i)).1 else ((A i).gen.2.change_altitude_pos.getD (newestPose u (es ++ pre i)).1)).y = (p i).y
        rw [b6]
        exact ⟨hq.1.trans hx.symm, hq.2.trans hy.symm⟩)
      (by show 1 ≤ ((A i).goals.goal.val.minus (p i)).norm; rw [hg i hi]; exact hd)
      (by show (p i).z + 1 / 10 < (A i).goals.goal.val.z; rw [hg i hi]; have := hlow i le_rfl; linarith) c hc0 b4
    refine ⟨w, ?_, ?_⟩
    · have h3 : min (tau / (9 / 10 + tau) * c) ((A i).goals.goal.val.minus (p i)).norm ≤ w := w3 tau htau (by
        rw [b5]
        have := hpace (i - 1) (by omega)
        rwa [show i - 1 + 1 = i by omega] at this)
      rw [hg i hi] at h3
      refine le_trans (le_min (mul_le_mul_of_nonneg_left (min_le_left _ _) ha0.le) ?_) h3
      have : step ≤ 1 * 1 := mul_le_mul ha1 (min_le_right _ _) hmin0 zero_le_one
      show step ≤ _
      linarith
    · rw [b7, w2]; rfl
  have hmove : ∀ i, 2 ≤ i → i < n → ∀ w, (m i).position = V3.fin ⟨(p i).x, (p i).y, (p i).z + w⟩ →
      (p (i + 1)).x = (p i).x ∧ (p (i + 1)).y = (p i).y ∧ (p (i + 1)).z = (p i).z + f i * w := by
    intro i h2 hi w hw
    obtain ⟨q, q1, q2⟩ := fl.moves i h2 hi
    rw [hw] at q1
    obtain rfl := fin_inj q1
    have e : p (i + 1) = (p i).plus (V3.smul (f i) ((⟨(p i).x, (p i).y, (p i).z + w⟩ : V3 ℝ).minus (p i))) := q2
    rw [e]
    unfold V3.plus V3.smul V3.minus
    dsimp only
    refine ⟨by ring, by ring, by ring⟩
  have hxy : ∀ i, 2 ≤ i → i ≤ n → (∀ j < i, (p j).z ≤ home.z - 4 / 5) → (p i).x = (p 2).x ∧ (p i).y = (p 2).y := by
    intro i h2
    induction i, h2 using Nat.le_induction with
    | base => intro _ _; exact ⟨rfl, rfl⟩
    | succ i h2 ih =>
      intro hi hlow
      obtain ⟨x1, x2⟩ := ih (by omega) (fun j hj => hlow j (by omega))
      obtain ⟨w, -, w3⟩ := hround i h2 (by omega) (fun j hj => hlow j (by omega)) x1 x2
      obtain ⟨e1, e2, -⟩ := hmove i h2 (by omega) w w3
      exact ⟨e1.trans x1, e2.trans x2⟩
  have hstep : ∀ i, 2 ≤ i → i ≤ n → (∀ j ≤ i, (p j).z ≤ home.z - 4 / 5) → ∃ w, step ≤ w ∧ (m i).position = V3.fin ⟨(p i).x, (p i).y, (p i).z + w⟩ ∧
      (i < n → (p i).z + part * step ≤ (p (i + 1)).z) := by
    intro i h2 hi hlow
    obtain ⟨x1, x2⟩ := hxy i h2 hi (fun j hj => hlow j hj.le)
    obtain ⟨w, w1, w2⟩ := hround i h2 hi hlow x1 x2
    refine ⟨w, w1, w2, fun hin => ?_⟩
    obtain ⟨-, -, hz⟩ := hmove i h2 hin w w2
    have h1 : part * step ≤ f i * w := mul_le_mul (hf i h2 hin) w1 hstep0 (hpart.trans (hf i h2 hin))
    rw [hz]
    linarith
  refine ⟨fun i h2 hi hlow => ?_, fun h2 hlen => ?_⟩
  · obtain ⟨x1, x2⟩ := hxy i h2 hi (fun j hj => hlow j hj.le)
    exact ⟨x1, x2, hstep i h2 hi hlow⟩
  · by_contra hnone
    push Not at hnone
    have hsum : ∀ i, 2 ≤ i → i ≤ n → (p 2).z + ((i : ℝ) - 2) * (part * step) ≤ (p i).z := by
      intro i h2
      induction i, h2 using Nat.le_induction with
      | base => intro _; push_cast; linarith
      | succ i h2 ih =>
        intro hi
        have h1 := ih (by omega)
        obtain ⟨w, -, -, k4⟩ := hstep i h2 (by omega) (fun j hj => hnone j (by omega))
        have k5 := k4 (by omega)
        push_cast
        linarith
    have h5 := hsum n h2 le_rfl
    have h6 := hnone n le_rfl
    linarith

/-- **C119 (violated): no descent.** The code names a descent of a return to launch (`rtl_descend`), to be commanded like a landing. It never comes to that: once a setpoint was sent while the vehicle was not 0.8 m
below home, however high above home, however near to it, the next setpoint is none of a change of altitude: no velocity is given with it, and the generator is in another mode - whatever plans, goals and
poses arrive. -/
theorem C119_no_descent_violated (r : Rounds Q s0 n pre A S t m) (u : Uninit) (l : Launch) (es : List NodeEvent) (h0 : loopM (nodeStep Q) (nodeInit u l) es = some s0)
    (i : ℕ) (hi : i < n) (hrtl : Returns es pre i) (hz : (A i).goals.goal.val.z - 4 / 5 < (newestPose u (es ++ pre i)).1.z) :
    (A (i + 1)).gen.1 ≠ .ALTITUDE_CHANGE ∧ (m (i + 1)).velocity = V3.nan := by
  have hmode : (A (i + 1)).gen.1 ≠ .ALTITUDE_CHANGE := by
    have e : (A (i + 1)).gen.1 = (wgCycle (A i).gen (newestInput u (es ++ pre i) (A i).goals.goal.val (A i).goals.is_land (A i).goals.is_takeoff (A i).goals.desired_velocity) (t i)).1 := by
      rw [(r.flags i hi).1, (r.cycle u l es h0 i (by omega)).1]
    have hA : ¬ AltitudeNeeded (newestInput u (es ++ pre i) (A i).goals.goal.val (A i).goals.is_land (A i).goals.is_takeoff (A i).goals.desired_velocity).position.z
        (newestInput u (es ++ pre i) (A i).goals.goal.val (A i).goals.is_land (A i).goals.is_takeoff (A i).goals.desired_velocity).goal.z
        (newestInput u (es ++ pre i) (A i).goals.goal.val (A i).goals.is_land (A i).goals.is_takeoff (A i).goals.desired_velocity).nav
        (newestInput u (es ++ pre i) (A i).goals.goal.val (A i).goals.is_land (A i).goals.is_takeoff (A i).goals.desired_velocity).is_takeoff
        (newestInput u (es ++ pre i) (A i).goals.goal.val (A i).goals.is_land (A i).goals.is_takeoff (A i).goals.desired_velocity).is_land
        (reachedBefore (A i).gen.2 (newestInput u (es ++ pre i) (A i).goals.goal.val (A i).goals.is_land (A i).goals.is_takeoff (A i).goals.desired_velocity)) := by
      show ¬ AltitudeNeeded (newestPose u (es ++ pre i)).1.z (A i).goals.goal.val.z (newestState (es ++ pre i)).2 _ _ _
      unfold Returns at hrtl
      rw [hrtl]
      unfold AltitudeNeeded
      rintro (h | h | h | h | h | h)
      · cases h.1
      · cases h
      · cases h.1
      · linarith [h.2]
      · cases h
      · cases h.1
    rw [e, C37_next_state]
    cases hm : (A i).gen.1 with
    | LOITER => dsimp only; split_ifs <;> simp
    | TRY_PATH => dsimp only; rw [if_neg hA]; split_ifs <;> simp
    | ALTITUDE_CHANGE => dsimp only; rw [if_neg hA]; split_ifs <;> simp
    | DIRECT => dsimp only; rw [if_neg hA]; split_ifs <;> simp
  refine ⟨hmode, ?_⟩
  rw [(r.cycle u l es h0 (i + 1) (by omega)).2]
  exact (C37_linear_velocity _ _ _).1 (Or.inl hmode)

end
end Avoidance
