import Verif.Simulator
import Verif.CostProps
import Mathlib.Analysis.Calculus.Deriv.Mul
import Mathlib.Analysis.Calculus.Deriv.Add

/-!
# C36: simulated trajectories
-/

namespace Avoidance
open Classical

/-! ## Clamping -/

/-- **C36, clamping.** For a non-negative bound the result has at most that norm, is the input when
the input is short enough, and otherwise has exactly the bound as norm and the input's direction. -/
theorem C36_norm_clamp (v : V3 ℝ) (m : ℝ) (hm : 0 ≤ m) :
    (normClamp3 v m).norm ≤ m ∧ (v.norm ≤ m → normClamp3 v m = v) ∧
    (m < v.norm → (normClamp3 v m).norm = m ∧ normClamp3 v m = V3.smul (m / v.norm) v) := by
  have hn := v.norm_nonneg
  have hs := V3.norm_sq v
  by_cases h : v.dot v > m * m
  · have hlt : m < v.norm := by
      by_contra hge
      nlinarith
    have hval : normClamp3 v m = V3.smul (m / v.norm) v := by
      unfold normClamp3; dsimp only; rw [if_pos h]; rfl
    have hnorm : (normClamp3 v m).norm = m := by
      rw [hval, V3.norm_smul, abs_of_nonneg (by positivity), div_mul_cancel₀]
      exact (lt_of_le_of_lt hm hlt).ne'
    exact ⟨hnorm.le, fun h' => absurd h' (not_le.2 hlt), fun _ => ⟨hnorm, hval⟩⟩
  · have hle : v.norm ≤ m := by
      by_contra hge
      push Not at hge h
      nlinarith
    have hval : normClamp3 v m = v := by unfold normClamp3; dsimp only; rw [if_neg h]
    exact ⟨by rw [hval]; exact hle, fun _ => hval, fun h' => absurd h' (not_lt.2 hle)⟩

/-- **C36, velocity target.** The velocity aimed at respects the horizontal and vertical limits. -/
theorem C36_desired_velocity_limits (config : SimLimits) (goal : V3 ℝ)
    (h2 : config.min_z_velocity ≤ config.max_z_velocity) :
    let v := desiredVelocity config goal
    v.x ^ 2 + v.y ^ 2 ≤ config.max_xy_velocity_norm ^ 2 ∧
    config.min_z_velocity ≤ v.z ∧ v.z ≤ config.max_z_velocity := by
  have key : ∀ (w : V3 ℝ), (xyNormZClamp w config.max_xy_velocity_norm config.min_z_velocity config.max_z_velocity).x ^ 2 +
      (xyNormZClamp w config.max_xy_velocity_norm config.min_z_velocity config.max_z_velocity).y ^ 2 ≤
        config.max_xy_velocity_norm ^ 2 ∧
      config.min_z_velocity ≤ (xyNormZClamp w config.max_xy_velocity_norm config.min_z_velocity config.max_z_velocity).z ∧
      (xyNormZClamp w config.max_xy_velocity_norm config.min_z_velocity config.max_z_velocity).z ≤ config.max_z_velocity := by
    intro w
    unfold xyNormZClamp normClamp2
    dsimp only
    refine ⟨?_, le_min h2 (le_max_left _ _), min_le_left _ _⟩
    by_cases h : w.x * w.x + w.y * w.y > config.max_xy_velocity_norm * config.max_xy_velocity_norm
    · rw [if_pos h]
      dsimp only
      have hpos : 0 < w.x * w.x + w.y * w.y := lt_of_le_of_lt (mul_self_nonneg _) h
      have hsq : Real.sqrt (w.x * w.x + w.y * w.y) ^ 2 = w.x * w.x + w.y * w.y := Real.sq_sqrt hpos.le
      have : (w.x * (config.max_xy_velocity_norm / Real.sqrt (w.x * w.x + w.y * w.y))) ^ 2 +
          (w.y * (config.max_xy_velocity_norm / Real.sqrt (w.x * w.x + w.y * w.y))) ^ 2 =
          (w.x * w.x + w.y * w.y) * config.max_xy_velocity_norm ^ 2 / Real.sqrt (w.x * w.x + w.y * w.y) ^ 2 := by
        field_simp
      rw [this, hsq, mul_comm, mul_div_assoc, div_self hpos.ne', mul_one]
    · rw [if_neg h]
      push Not at h
      dsimp only
      nlinarith
  exact key _

/-! ## Integration -/

/-- **C36, integration.** A step of constant jerk composes over time: integrating for `t1` and then
for `t2` is integrating for `t1 + t2`; zero time changes nothing. -/
theorem C36_step_composes (s : SimState) (jerk : V3 ℝ) (t1 t2 : ℝ) :
    simulateStep (simulateStep s jerk t1) jerk t2 = simulateStep s jerk (t1 + t2) ∧
    simulateStep s jerk 0 = s := by
  constructor
  · unfold simulateStep V3.plus V3.smul
    simp only [SimState.mk.injEq, V3.mk.injEq]
    refine ⟨by ring, ⟨by ring, by ring, by ring⟩, ⟨by ring, by ring, by ring⟩, by ring, by ring, by ring⟩
  · unfold simulateStep V3.plus V3.smul
    cases s with
    | mk t p v a => cases p; cases v; cases a; simp

theorem V3.norm_add_le (a b : V3 ℝ) : (a.plus b).norm ≤ a.norm + b.norm := by
  apply le_of_sq_le_sq₀ _ (add_nonneg a.norm_nonneg b.norm_nonneg)
  have h1 := V3.norm_sq a
  have h2 := V3.norm_sq b
  have h3 := V3.norm_sq (a.plus b)
  have h4 := le_of_abs_le (V3.abs_dot_le a b)
  have h5 : (a.plus b).dot (a.plus b) = a.dot a + 2 * a.dot b + b.dot b := by
    simp only [V3.dot, V3.plus]; ring
  nlinarith
where
  le_of_sq_le_sq₀ {x y : ℝ} (h : x * x ≤ y * y) (hy : 0 ≤ y) : x ≤ y := by
    by_contra hlt
    push Not at hlt
    nlinarith

/-- Two consecutive states of a trajectory: the second follows from the first by a constant jerk
within the jerk limit over a positive time of at most one step. -/
def LimitedStep (max_jerk step_time : ℝ) (s s' : SimState) : Prop :=
  ∃ jerk t, jerk.norm ≤ max_jerk ∧ 0 < t ∧ t ≤ step_time ∧ s' = simulateStep s jerk t

theorem simIteration_spec (config : SimLimits) (step_time P D : ℝ) (v : V3 ℝ) (s : SimState)
    (hst : 0 < step_time) (hj : 0 ≤ config.max_jerk_norm) (ha : 0 ≤ config.max_acceleration_norm) :
    LimitedStep config.max_jerk_norm step_time s (simIteration config step_time P D v s) ∧
    (simIteration config step_time P D v s).acceleration.norm ≤
      max s.acceleration.norm (min (2 * Real.sqrt config.max_jerk_norm) config.max_acceleration_norm) := by
  unfold simIteration
  dsimp only
  set j := jerkForVelocitySetpoint P D config.max_jerk_norm v s with hjd
  have hjn : j.norm ≤ config.max_jerk_norm := (C36_norm_clamp _ _ hj).1
  have hz : (⟨0, 0, 0⟩ : V3 ℝ).norm = 0 := by simp [V3.norm, V3.dot]
  change _ ∧ _ ≤ max s.acceleration.norm (maxAccelNorm config)
  have ham : 0 ≤ maxAccelNorm config := le_min (by positivity) ha
  by_cases h : (s.acceleration.plus (V3.smul step_time j)).dot (s.acceleration.plus (V3.smul step_time j)) >
      maxAccelNorm config * maxAccelNorm config
  · rw [if_pos h]
    by_cases h' : (maxAccelNorm config - s.acceleration.norm) / j.norm ≤ fltEpsilon ∨
        (maxAccelNorm config - s.acceleration.norm) / j.norm > step_time
    · rw [if_pos h']
      refine ⟨⟨⟨0, 0, 0⟩, step_time, by rw [hz]; exact hj, hst, le_rfl, rfl⟩, ?_⟩
      refine le_trans (le_of_eq ?_) (le_max_left _ _)
      unfold simulateStep V3.plus V3.smul; simp
    · rw [if_neg h']
      push Not at h'
      have hpos : 0 < (maxAccelNorm config - s.acceleration.norm) / j.norm :=
        lt_trans (by unfold fltEpsilon; norm_num) h'.1
      refine ⟨⟨j, _, hjn, hpos, h'.2, rfl⟩, ?_⟩
      refine le_trans ?_ (le_max_right _ _)
      have hj0 : 0 < j.norm := by
        rcases (j.norm_nonneg).lt_or_eq with h0 | h0
        · exact h0
        · rw [← h0, div_zero] at hpos; exact absurd hpos (lt_irrefl _)
      refine (V3.norm_add_le _ _).trans ?_
      rw [V3.norm_smul, abs_of_pos hpos]
      field_simp
      linarith
  · rw [if_neg h]
    refine ⟨⟨j, step_time, hjn, hst, le_rfl, rfl⟩, ?_⟩
    refine le_trans ?_ (le_max_right _ _)
    push Not at h
    rw [← V3.norm_sq] at h
    exact V3.norm_add_le.le_of_sq_le_sq₀ h ham

/-- **C36, trajectory.** For a positive step and non-negative limits, every generated trajectory has
one state per (started) step of the duration; starting from the start state each state follows from
its predecessor by exact constant-jerk motion within the jerk limit and at most one step long; and no
state has a larger acceleration than the start state or the acceleration limit, whichever is larger. -/
theorem C36_trajectory (config : SimLimits) (start : SimState) (step_time : ℝ) (goal : V3 ℝ) (duration : ℝ)
    (traj : List SimState) (hst : 0 < step_time) (hj : 0 ≤ config.max_jerk_norm)
    (ha : 0 ≤ config.max_acceleration_norm)
    (h : generateTrajectory config start step_time goal duration = some traj) :
    (traj.length : ℤ) = ⌈duration / step_time⌉ ∧
    (start :: traj).IsChain (LimitedStep config.max_jerk_norm step_time) ∧
    (∀ s ∈ traj, s.acceleration.norm ≤ max start.acceleration.norm
      (min (2 * Real.sqrt config.max_jerk_norm) config.max_acceleration_norm)) ∧
    (∀ s ∈ traj, start.time < s.time ∧ s.time ≤ start.time + traj.length * step_time) := by
  have loop : ∀ (P D : ℝ) (v : V3 ℝ) (n : ℕ) (s : SimState),
      (simLoop config step_time P D v n s).length = n ∧
      (s :: simLoop config step_time P D v n s).IsChain (LimitedStep config.max_jerk_norm step_time) ∧
      (∀ x ∈ simLoop config step_time P D v n s, x.acceleration.norm ≤ max s.acceleration.norm
        (min (2 * Real.sqrt config.max_jerk_norm) config.max_acceleration_norm)) ∧
      (∀ x ∈ simLoop config step_time P D v n s, s.time < x.time ∧ x.time ≤ s.time + n * step_time) := by
    intro P D v n
    induction n with
    | zero => intro s; simp [simLoop]
    | succ n ih =>
      intro s
      obtain ⟨i1, i2⟩ := simIteration_spec config step_time P D v s hst hj ha
      obtain ⟨l1, l2, l3, l4⟩ := ih (simIteration config step_time P D v s)
      have htime : s.time < (simIteration config step_time P D v s).time ∧
          (simIteration config step_time P D v s).time ≤ s.time + step_time := by
        obtain ⟨j, t, -, t1, t2, t3⟩ := i1
        rw [t3]
        unfold simulateStep
        dsimp only
        constructor <;> linarith
      simp only [simLoop]
      refine ⟨by simp [l1], List.IsChain.cons_cons i1 l2, ?_, ?_⟩
      · intro x hx
        rcases List.mem_cons.1 hx with rfl | hx
        · exact i2
        · exact (l3 x hx).trans (max_le i2 (le_max_right _ _))
      · intro x hx
        push_cast
        rcases List.mem_cons.1 hx with rfl | hx
        · have : 0 ≤ (n : ℝ) * step_time := by positivity
          exact ⟨htime.1, by linarith [htime.2]⟩
        · obtain ⟨q1, q2⟩ := l4 x hx
          exact ⟨by linarith [htime.1], by linarith [htime.2]⟩
  unfold generateTrajectory at h
  dsimp only at h
  by_cases h1 : ⌈duration / step_time⌉ < 0
  · rw [if_pos h1] at h; simp at h
  · rw [if_neg h1] at h
    by_cases h2 : ⌈duration / step_time⌉ = 0
    · rw [if_pos h2] at h
      simp only [Option.some.injEq] at h
      subst h
      simp [h2]
    · rw [if_neg h2] at h
      by_cases h3 : (desiredVelocity config goal).norm = 0 ∨ config.max_jerk_norm < 0
      · rw [if_pos h3] at h; simp at h
      · rw [if_neg h3] at h
        simp only [Option.some.injEq] at h
        subst h
        obtain ⟨l1, l2, l3, l4⟩ := loop _ _ _ ⌈duration / step_time⌉.toNat start
        refine ⟨?_, l2, l3, ?_⟩
        · rw [l1]; omega
        · rw [l1]; exact l4

/-- **C36, physics.** During a step, time passes at rate one, and position, velocity and acceleration
are each the derivative of the one before; the derivative of the acceleration is the jerk. -/
theorem C36_step_physics (s : SimState) (jerk : V3 ℝ) (t : ℝ) :
    (simulateStep s jerk t).time = s.time + t ∧
    HasDerivAt (fun t => (simulateStep s jerk t).position.x) (simulateStep s jerk t).velocity.x t ∧
    HasDerivAt (fun t => (simulateStep s jerk t).position.y) (simulateStep s jerk t).velocity.y t ∧
    HasDerivAt (fun t => (simulateStep s jerk t).position.z) (simulateStep s jerk t).velocity.z t ∧
    HasDerivAt (fun t => (simulateStep s jerk t).velocity.x) (simulateStep s jerk t).acceleration.x t ∧
    HasDerivAt (fun t => (simulateStep s jerk t).velocity.y) (simulateStep s jerk t).acceleration.y t ∧
    HasDerivAt (fun t => (simulateStep s jerk t).velocity.z) (simulateStep s jerk t).acceleration.z t ∧
    HasDerivAt (fun t => (simulateStep s jerk t).acceleration.x) jerk.x t ∧
    HasDerivAt (fun t => (simulateStep s jerk t).acceleration.y) jerk.y t ∧
    HasDerivAt (fun t => (simulateStep s jerk t).acceleration.z) jerk.z t := by
  have pos : ∀ p v a j : ℝ, HasDerivAt (fun t : ℝ => p + t * v + 1 / 2 * (t * t) * a + 1 / 6 * (t * t * t) * j)
      (v + t * a + 1 / 2 * (t * t) * j) t := by
    intro p v a j
    have h1 := (hasDerivAt_id' t).mul_const v
    have h2 := ((((hasDerivAt_id' t).mul (hasDerivAt_id' t)).const_mul (1 / 2 : ℝ)).mul_const a)
    have h3 := (((((hasDerivAt_id' t).mul (hasDerivAt_id' t)).mul (hasDerivAt_id' t)).const_mul (1 / 6 : ℝ)).mul_const j)
    have h := ((h1.const_add p).add h2).add h3
    refine h.congr_deriv ?_
    simp only [Pi.mul_apply]
    ring
  have vel : ∀ v a j : ℝ, HasDerivAt (fun t : ℝ => v + t * a + 1 / 2 * (t * t) * j) (a + t * j) t := by
    intro v a j
    have h1 := (hasDerivAt_id' t).mul_const a
    have h2 := ((((hasDerivAt_id' t).mul (hasDerivAt_id' t)).const_mul (1 / 2 : ℝ)).mul_const j)
    refine ((h1.const_add v).add h2).congr_deriv ?_
    ring
  have acc : ∀ a j : ℝ, HasDerivAt (fun t : ℝ => a + t * j) j t := by
    intro a j
    refine (((hasDerivAt_id' t).mul_const j).const_add a).congr_deriv ?_
    ring
  exact ⟨rfl, pos _ _ _ _, pos _ _ _ _, pos _ _ _ _, vel _ _ _, vel _ _ _, vel _ _ _, acc _ _, acc _ _, acc _ _⟩

/-- **C36, velocity target.** Let `u` be the goal direction (of length one).  The speed budget `S` is
that of the horizontal limit combined with the vertical limit of the direction flown.  The horizontal
target points along `u` and has length `S·|u_xy|`, cut off at the horizontal limit; the vertical
target is `S·u_z`, cut off at the two vertical limits. -/
theorem C36_desired_velocity_exact (config : SimLimits) (goal u : V3 ℝ) (len : ℝ) (hlen : 0 < len)
    (hu : u.dot u = 1) (hg : goal = V3.smul len u) (hxy : 0 ≤ config.max_xy_velocity_norm) (S : ℝ)
    (hS0 : 0 ≤ S)
    (hS : S ^ 2 = config.max_xy_velocity_norm ^ 2 +
      (if 0 < goal.z then config.max_z_velocity else config.min_z_velocity) ^ 2) :
    let v := desiredVelocity config goal
    v.z = min config.max_z_velocity (max config.min_z_velocity (S * u.z)) ∧
    (S * Real.sqrt (u.x ^ 2 + u.y ^ 2) ≤ config.max_xy_velocity_norm → v.x = S * u.x ∧ v.y = S * u.y) ∧
    (config.max_xy_velocity_norm < S * Real.sqrt (u.x ^ 2 + u.y ^ 2) →
      ∃ k, 0 ≤ k ∧ v.x = k * u.x ∧ v.y = k * u.y ∧
        Real.sqrt (v.x ^ 2 + v.y ^ 2) = config.max_xy_velocity_norm) := by
  have hun : u.norm = 1 := by unfold V3.norm; rw [hu]; exact Real.sqrt_one
  have hgn : goal.norm = len := by rw [hg, V3.norm_smul, hun, abs_of_pos hlen, mul_one]
  have hgd : 0 < goal.dot goal := by rw [← V3.norm_sq, hgn]; exact mul_pos hlen hlen
  have hnorm : goal.normalized = u := by
    unfold V3.normalized
    rw [if_pos hgd, hgn, hg]
    unfold V3.smul
    cases u
    simp only [V3.mk.injEq]
    refine ⟨?_, ?_, ?_⟩ <;> field_simp
  have hz : (0 < goal.z) = (u.z > 0) := by
    rw [hg]; unfold V3.smul; exact propext (mul_pos_iff_of_pos_left hlen)
  have hSv : ∀ vz : ℝ, S ^ 2 = config.max_xy_velocity_norm ^ 2 + vz ^ 2 →
      Real.sqrt (config.max_xy_velocity_norm * config.max_xy_velocity_norm + vz * vz) = S := by
    intro vz h
    rw [show config.max_xy_velocity_norm * config.max_xy_velocity_norm + vz * vz = S ^ 2 by rw [h]; ring]
    exact Real.sqrt_sq hS0
  have hv : desiredVelocity config goal = xyNormZClamp (V3.smul S u) config.max_xy_velocity_norm
      config.min_z_velocity config.max_z_velocity := by
    unfold desiredVelocity
    dsimp only
    rw [hnorm]
    congr 2
    apply hSv
    by_cases h : u.z > 0
    · rw [if_pos h]; rw [if_pos (hz ▸ h)] at hS; exact hS
    · rw [if_neg h]; rw [if_neg (hz ▸ h)] at hS; exact hS
  intro v
  have hv' : v = xyNormZClamp (V3.smul S u) config.max_xy_velocity_norm config.min_z_velocity config.max_z_velocity := hv
  have hr := Real.sqrt_nonneg (u.x ^ 2 + u.y ^ 2)
  have hrr : Real.sqrt (u.x ^ 2 + u.y ^ 2) ^ 2 = u.x ^ 2 + u.y ^ 2 := Real.sq_sqrt (by positivity)
  have hsq : (S * u.x) * (S * u.x) + (S * u.y) * (S * u.y) = (S * Real.sqrt (u.x ^ 2 + u.y ^ 2)) ^ 2 := by
    rw [mul_pow, hrr]; ring
  have hsr : 0 ≤ S * Real.sqrt (u.x ^ 2 + u.y ^ 2) := mul_nonneg hS0 hr
  refine ⟨by rw [hv']; rfl, ?_, ?_⟩
  · intro h
    have : ¬ (S * u.x) * (S * u.x) + (S * u.y) * (S * u.y) >
        config.max_xy_velocity_norm * config.max_xy_velocity_norm := by
      rw [hsq]; push Not; nlinarith
    rw [hv']
    unfold xyNormZClamp normClamp2 V3.smul
    dsimp only
    rw [if_neg this]
    exact ⟨rfl, rfl⟩
  · intro h
    have hgt : (S * u.x) * (S * u.x) + (S * u.y) * (S * u.y) >
        config.max_xy_velocity_norm * config.max_xy_velocity_norm := by
      rw [hsq]; nlinarith
    have hvx : v.x = S * (config.max_xy_velocity_norm / Real.sqrt ((S * u.x) * (S * u.x) + (S * u.y) * (S * u.y))) * u.x := by
      rw [hv']
      unfold xyNormZClamp normClamp2 V3.smul
      dsimp only
      rw [if_pos hgt]
      ring
    have hvy : v.y = S * (config.max_xy_velocity_norm / Real.sqrt ((S * u.x) * (S * u.x) + (S * u.y) * (S * u.y))) * u.y := by
      rw [hv']
      unfold xyNormZClamp normClamp2 V3.smul
      dsimp only
      rw [if_pos hgt]
      ring
    refine ⟨_, ?_, hvx, hvy, ?_⟩
    · positivity
    · rw [hsq, Real.sqrt_sq hsr] at hvx hvy
      have hpos : 0 < S * Real.sqrt (u.x ^ 2 + u.y ^ 2) := lt_of_le_of_lt hxy h
      have : v.x ^ 2 + v.y ^ 2 = config.max_xy_velocity_norm ^ 2 := by
        rw [hvx, hvy]
        have e : (S * (config.max_xy_velocity_norm / (S * Real.sqrt (u.x ^ 2 + u.y ^ 2))) * u.x) ^ 2 +
            (S * (config.max_xy_velocity_norm / (S * Real.sqrt (u.x ^ 2 + u.y ^ 2))) * u.y) ^ 2 =
            config.max_xy_velocity_norm ^ 2 * (S ^ 2 * (u.x ^ 2 + u.y ^ 2)) / (S * Real.sqrt (u.x ^ 2 + u.y ^ 2)) ^ 2 := by
          generalize S * Real.sqrt (u.x ^ 2 + u.y ^ 2) = q
          ring
        rw [e, mul_pow, hrr, mul_div_assoc, div_self, mul_one]
        rw [← hrr, ← mul_pow]
        exact (pow_pos hpos 2).ne'
      rw [this, Real.sqrt_sq hxy]

/-- Non-vacuity: full speed straight ahead and 3/4 as fast upwards. -/
example : (⟨3 / 5, 0, 4 / 5⟩ : V3 ℝ).dot ⟨3 / 5, 0, 4 / 5⟩ = 1 ∧
    (⟨6, 0, 8⟩ : V3 ℝ) = V3.smul 10 ⟨3 / 5, 0, 4 / 5⟩ ∧ (5 : ℝ) ^ 2 = 4 ^ 2 + (if (0 : ℝ) < 8 then 3 else -1) ^ 2 := by
  unfold V3.dot V3.smul; norm_num

/-- One step of the controller, declaratively.  The jerk is `P·(target − velocity) − 2√P·acceleration`,
shortened to the jerk limit if longer.  If holding it for a whole step keeps the acceleration within
`amax`, that is the step; otherwise it is held until the acceleration could reach `amax`, unless that
time is negligible (or longer than the step): then the acceleration is kept for a whole step. -/
def ControlledStep (jmax amax step_time P : ℝ) (target : V3 ℝ) (s s' : SimState) : Prop :=
  ∃ raw jerk : V3 ℝ,
    raw = (V3.smul P (target.minus s.velocity)).minus (V3.smul (2 * Real.sqrt P) s.acceleration) ∧
    (raw.norm ≤ jmax → jerk = raw) ∧
    (jmax < raw.norm → jerk = V3.smul (jmax / raw.norm) raw) ∧
    ((s.acceleration.plus (V3.smul step_time jerk)).norm ≤ amax → s' = simulateStep s jerk step_time) ∧
    (amax < (s.acceleration.plus (V3.smul step_time jerk)).norm →
      (1 / 8388608 < (amax - s.acceleration.norm) / jerk.norm ∧
        (amax - s.acceleration.norm) / jerk.norm ≤ step_time ∧
        s' = simulateStep s jerk ((amax - s.acceleration.norm) / jerk.norm)) ∨
      (¬ (1 / 8388608 < (amax - s.acceleration.norm) / jerk.norm ∧
        (amax - s.acceleration.norm) / jerk.norm ≤ step_time) ∧
        s' = simulateStep s ⟨0, 0, 0⟩ step_time))

/-- **C36, control law.** Every non-empty trajectory is produced by one proportional-derivative
controller for the target velocity: critically damped (`D = 2√P`), with the gain `P` for which
`(P·|v|/10 + amax)² = amax² + jmax·|v|`, where `amax` is the acceleration limit or twice the root of
the jerk limit, whichever is smaller. -/
theorem C36_control_law (config : SimLimits) (start : SimState) (step_time : ℝ) (goal : V3 ℝ) (duration : ℝ)
    (traj : List SimState) (hj : 0 ≤ config.max_jerk_norm) (ha : 0 ≤ config.max_acceleration_norm)
    (hne : traj ≠ [])
    (h : generateTrajectory config start step_time goal duration = some traj) :
    ∃ P, 0 ≤ P ∧
      (P * (desiredVelocity config goal).norm / 10 +
          min (2 * Real.sqrt config.max_jerk_norm) config.max_acceleration_norm) ^ 2 =
        min (2 * Real.sqrt config.max_jerk_norm) config.max_acceleration_norm ^ 2 +
          config.max_jerk_norm * (desiredVelocity config goal).norm ∧
      (start :: traj).IsChain (ControlledStep config.max_jerk_norm
        (min (2 * Real.sqrt config.max_jerk_norm) config.max_acceleration_norm) step_time P
        (desiredVelocity config goal)) := by
  have ham : 0 ≤ maxAccelNorm config := le_min (by positivity) ha
  have iter : ∀ (P : ℝ) (v : V3 ℝ) (s : SimState), ControlledStep config.max_jerk_norm (maxAccelNorm config)
      step_time P v s (simIteration config step_time P (2 * Real.sqrt P) v s) := by
    intro P v s
    set raw := (V3.smul P (v.minus s.velocity)).minus (V3.smul (2 * Real.sqrt P) s.acceleration) with hraw
    have hj' : jerkForVelocitySetpoint P (2 * Real.sqrt P) config.max_jerk_norm v s =
        normClamp3 raw config.max_jerk_norm := by
      unfold jerkForVelocitySetpoint
      dsimp only
      congr 1
      rw [hraw]
      unfold V3.plus V3.minus V3.smul
      simp only [V3.mk.injEq]
      refine ⟨by ring, by ring, by ring⟩
    obtain ⟨-, c2, c3⟩ := C36_norm_clamp raw config.max_jerk_norm hj
    refine ⟨raw, normClamp3 raw config.max_jerk_norm, rfl, c2, fun h => (c3 h).2, ?_, ?_⟩
    · intro hle
      unfold simIteration
      dsimp only
      rw [hj', if_neg]
      push Not
      rw [← V3.norm_sq]
      exact mul_self_le_mul_self (V3.norm_nonneg _) hle
    · intro hlt
      unfold simIteration
      dsimp only
      rw [hj', if_pos]
      · by_cases h' : 1 / 8388608 < (maxAccelNorm config - s.acceleration.norm) / (normClamp3 raw config.max_jerk_norm).norm ∧
          (maxAccelNorm config - s.acceleration.norm) / (normClamp3 raw config.max_jerk_norm).norm ≤ step_time
        · left
          refine ⟨h'.1, h'.2, ?_⟩
          rw [if_neg]
          unfold fltEpsilon
          push Not
          exact h'
        · right
          refine ⟨h', ?_⟩
          rw [if_pos]
          unfold fltEpsilon
          by_contra hc
          push Not at hc
          exact h' hc
      · rw [← V3.norm_sq]
        exact mul_self_lt_mul_self ham hlt
  have loop : ∀ (P : ℝ) (v : V3 ℝ) (n : ℕ) (s : SimState),
      (s :: simLoop config step_time P (2 * Real.sqrt P) v n s).IsChain
        (ControlledStep config.max_jerk_norm (maxAccelNorm config) step_time P v) := by
    intro P v n
    induction n with
    | zero => intro s; simp [simLoop]
    | succ n ih =>
      intro s
      simp only [simLoop]
      exact List.IsChain.cons_cons (iter P v s) (ih _)
  unfold generateTrajectory at h
  dsimp only at h
  by_cases h1 : ⌈duration / step_time⌉ < 0
  · rw [if_pos h1] at h; simp at h
  · rw [if_neg h1] at h
    by_cases h2 : ⌈duration / step_time⌉ = 0
    · rw [if_pos h2] at h
      simp only [Option.some.injEq] at h
      exact absurd h.symm hne
    · rw [if_neg h2] at h
      by_cases h3 : (desiredVelocity config goal).norm = 0 ∨ config.max_jerk_norm < 0
      · rw [if_pos h3] at h; simp at h
      · rw [if_neg h3] at h
        simp only [Option.some.injEq] at h
        subst h
        push Not at h3
        have hvn : 0 < (desiredVelocity config goal).norm := lt_of_le_of_ne (V3.norm_nonneg _) (Ne.symm h3.1)
        have hd : 0 ≤ maxAccelNorm config * maxAccelNorm config +
            config.max_jerk_norm * (desiredVelocity config goal).norm := by positivity
        refine ⟨pConstant config (desiredVelocity config goal), ?_, ?_, loop _ _ _ start⟩
        · unfold pConstant
          have : maxAccelNorm config ≤ Real.sqrt (maxAccelNorm config * maxAccelNorm config +
              config.max_jerk_norm * (desiredVelocity config goal).norm) := by
            apply Real.le_sqrt_of_sq_le
            have := mul_nonneg hj hvn.le
            nlinarith
          have := div_nonneg (sub_nonneg.2 this) hvn.le
          linarith
        · change (pConstant config (desiredVelocity config goal) * (desiredVelocity config goal).norm / 10 +
            maxAccelNorm config) ^ 2 = maxAccelNorm config ^ 2 + _
          have : pConstant config (desiredVelocity config goal) * (desiredVelocity config goal).norm / 10 +
              maxAccelNorm config = Real.sqrt (maxAccelNorm config * maxAccelNorm config +
              config.max_jerk_norm * (desiredVelocity config goal).norm) := by
            unfold pConstant
            field_simp
            ring
          rw [this, Real.sq_sqrt hd]
          ring

/-- **C36, steady flight.** A vehicle that already moves with the target velocity and does not
accelerate keeps doing so: every state is the start state advanced at constant velocity by whole steps. -/
theorem C36_steady_flight (config : SimLimits) (start : SimState) (step_time : ℝ) (goal : V3 ℝ) (duration : ℝ)
    (traj : List SimState) (hj : 0 ≤ config.max_jerk_norm)
    (hv : start.velocity = desiredVelocity config goal) (ha : start.acceleration = ⟨0, 0, 0⟩)
    (h : generateTrajectory config start step_time goal duration = some traj) (k : ℕ) (s : SimState)
    (hk : traj[k]? = some s) :
    s.velocity = start.velocity ∧ s.acceleration = ⟨0, 0, 0⟩ ∧
    s.time = start.time + (k + 1) * step_time ∧
    s.position = start.position.plus (V3.smul ((k + 1) * step_time) start.velocity) := by
  have step : ∀ (P D : ℝ) (s : SimState), s.velocity = desiredVelocity config goal → s.acceleration = ⟨0, 0, 0⟩ →
      simIteration config step_time P D (desiredVelocity config goal) s =
        ⟨s.time + step_time, s.position.plus (V3.smul step_time s.velocity), s.velocity, s.acceleration⟩ := by
    intro P D s h1 h2
    have hjerk : jerkForVelocitySetpoint P D config.max_jerk_norm (desiredVelocity config goal) s = ⟨0, 0, 0⟩ := by
      unfold jerkForVelocitySetpoint
      rw [h1, h2]
      dsimp only
      rw [(C36_norm_clamp _ _ hj).2.1]
      · simp [V3.smul, V3.plus, V3.minus]
      · simp [V3.smul, V3.plus, V3.minus, V3.norm, V3.dot, hj]
    unfold simIteration
    dsimp only
    rw [hjerk, h2, if_neg]
    · unfold simulateStep
      rw [h2]
      simp [V3.smul, V3.plus]
    · simp only [V3.smul, V3.plus, V3.dot]
      push Not
      have := mul_self_nonneg (maxAccelNorm config)
      simpa using this
  have loop : ∀ (P D : ℝ) (n k : ℕ) (s x : SimState), s.velocity = desiredVelocity config goal →
      s.acceleration = ⟨0, 0, 0⟩ →
      (simLoop config step_time P D (desiredVelocity config goal) n s)[k]? = some x →
      x.velocity = s.velocity ∧ x.acceleration = ⟨0, 0, 0⟩ ∧ x.time = s.time + (k + 1) * step_time ∧
      x.position = s.position.plus (V3.smul ((k + 1) * step_time) s.velocity) := by
    intro P D n
    induction n with
    | zero => intro k s x h1 h2 h3; simp [simLoop] at h3
    | succ n ih =>
      intro k s x h1 h2 h3
      simp only [simLoop, step P D s h1 h2] at h3
      cases k with
      | zero =>
        simp only [List.getElem?_cons_zero, Option.some.injEq] at h3
        subst h3
        exact ⟨rfl, h2, by push_cast; ring, by simp⟩
      | succ k =>
        simp only [List.getElem?_cons_succ] at h3
        obtain ⟨q1, q2, q3, q4⟩ := ih k ⟨s.time + step_time, s.position.plus (V3.smul step_time s.velocity),
          s.velocity, s.acceleration⟩ x h1 h2 h3
        refine ⟨q1, q2, by rw [q3]; push_cast; ring, ?_⟩
        rw [q4]
        simp only [V3.plus, V3.smul, V3.mk.injEq]
        push_cast
        exact ⟨by ring, by ring, by ring⟩
  unfold generateTrajectory at h
  dsimp only at h
  by_cases h1 : ⌈duration / step_time⌉ < 0
  · rw [if_pos h1] at h; simp at h
  · rw [if_neg h1] at h
    by_cases h2 : ⌈duration / step_time⌉ = 0
    · rw [if_pos h2] at h
      simp only [Option.some.injEq] at h
      subst h; simp at hk
    · rw [if_neg h2] at h
      by_cases h3 : (desiredVelocity config goal).norm = 0 ∨ config.max_jerk_norm < 0
      · rw [if_pos h3] at h; simp at h
      · rw [if_neg h3] at h
        simp only [Option.some.injEq] at h
        subst h
        exact loop _ _ _ k start s hv ha hk

/-- **C36, finding.** The states need not cover the requested duration: a step shortened by the
acceleration limit still counts as a full step.  Here one second is requested in one step of one
second, and the only state returned is a quarter of a second after the start. -/
theorem C36_duration_not_covered_witness :
    ∃ s, generateTrajectory ⟨0, 0, 2, 1, 4⟩ ⟨0, ⟨0, 0, 0⟩, ⟨0, 0, 0⟩, ⟨0, 0, 0⟩⟩ 1 ⟨1, 0, 0⟩ 1 = some [s] ∧
      s.time = 1 / 4 := by
  have s4 : Real.sqrt 4 = 2 := by
    rw [show (4 : ℝ) = 2 ^ 2 by norm_num]; exact Real.sqrt_sq (by norm_num)
  have s9 : Real.sqrt 9 = 3 := by
    rw [show (9 : ℝ) = 3 ^ 2 by norm_num]; exact Real.sqrt_sq (by norm_num)
  have s400 : Real.sqrt 400 = 20 := by
    rw [show (400 : ℝ) = 20 ^ 2 by norm_num]; exact Real.sqrt_sq (by norm_num)
  have s16 : Real.sqrt 16 = 4 := by
    rw [show (16 : ℝ) = 4 ^ 2 by norm_num]; exact Real.sqrt_sq (by norm_num)
  have hv : desiredVelocity ⟨0, 0, 2, 1, 4⟩ ⟨1, 0, 0⟩ = ⟨2, 0, 0⟩ := by
    unfold desiredVelocity V3.normalized V3.norm V3.dot V3.smul xyNormZClamp normClamp2
    norm_num [s4]
  have hn : (⟨2, 0, 0⟩ : V3 ℝ).norm = 2 := by unfold V3.norm V3.dot; norm_num [s4]
  have ham : maxAccelNorm ⟨0, 0, 2, 1, 4⟩ = 1 := by unfold maxAccelNorm; norm_num [s4]
  have hP : pConstant ⟨0, 0, 2, 1, 4⟩ ⟨2, 0, 0⟩ = 10 := by
    unfold pConstant
    rw [hn, ham]
    norm_num [s9]
  refine ⟨simIteration ⟨0, 0, 2, 1, 4⟩ 1 10 (2 * Real.sqrt 10) ⟨2, 0, 0⟩
    ⟨0, ⟨0, 0, 0⟩, ⟨0, 0, 0⟩, ⟨0, 0, 0⟩⟩, ?_, ?_⟩
  · unfold generateTrajectory
    rw [show ⌈(1 : ℝ) / 1⌉ = 1 by norm_num, hv]
    dsimp only
    rw [hn, hP]
    norm_num
    unfold simLoop simLoop
    trivial
  · have hjerk : jerkForVelocitySetpoint 10 (2 * Real.sqrt 10) 4 ⟨2, 0, 0⟩
        ⟨0, ⟨0, 0, 0⟩, ⟨0, 0, 0⟩, ⟨0, 0, 0⟩⟩ = ⟨4, 0, 0⟩ := by
      unfold jerkForVelocitySetpoint normClamp3 V3.dot V3.plus V3.smul V3.minus
      norm_num [s400]
    have hj4 : (⟨4, 0, 0⟩ : V3 ℝ).norm = 4 := by unfold V3.norm V3.dot; norm_num [s16]
    have hj0 : (⟨0, 0, 0⟩ : V3 ℝ).norm = 0 := by unfold V3.norm V3.dot; norm_num
    unfold simIteration
    dsimp only
    rw [hjerk, ham, hj4, hj0, if_pos, if_neg]
    · unfold simulateStep; norm_num
    · unfold fltEpsilon; norm_num
    · unfold V3.dot V3.plus V3.smul; norm_num

/-- **C36, finding.** Without a direction (zero goal vector) the velocity target is zero and the gain
computation divides by it: every state of a non-empty trajectory is NaN. -/
theorem C36_zero_goal_is_nan (config : SimLimits) (start : SimState) (step_time duration : ℝ)
    (hz : config.min_z_velocity ≤ 0) (hz' : 0 ≤ config.max_z_velocity) (hst : 0 < step_time) (hd : 0 < duration) :
    generateTrajectory config start step_time ⟨0, 0, 0⟩ duration = none := by
  have hv : desiredVelocity config ⟨0, 0, 0⟩ = ⟨0, 0, 0⟩ := by
    unfold desiredVelocity V3.normalized
    have : ¬ (0 : ℝ) < (⟨0, 0, 0⟩ : V3 ℝ).dot ⟨0, 0, 0⟩ := by unfold V3.dot; norm_num
    rw [if_neg this]
    unfold xyNormZClamp normClamp2 V3.smul
    simp only [mul_zero, add_zero]
    rw [if_neg (by push Not; exact mul_self_nonneg _)]
    simp [hz, hz']
  have hpos : 0 < ⌈duration / step_time⌉ := Int.ceil_pos.2 (by positivity)
  unfold generateTrajectory
  dsimp only
  rw [if_neg (by omega), if_neg (by omega), hv, if_pos]
  left
  unfold V3.norm V3.dot; norm_num

end Avoidance
