import Verif.Cost
import Verif.AnglesProps
import Verif.PolarProps

/-!
# C28: the cost function
-/

namespace Avoidance

theorem V3.dot_self_nonneg (a : V3 ℝ) : 0 ≤ a.dot a := by
  unfold V3.dot; nlinarith [sq_nonneg a.x, sq_nonneg a.y, sq_nonneg a.z]

theorem V3.norm_nonneg (a : V3 ℝ) : 0 ≤ a.norm := Real.sqrt_nonneg _

theorem V3.norm_sq (a : V3 ℝ) : a.norm * a.norm = a.dot a :=
  Real.mul_self_sqrt a.dot_self_nonneg

theorem V3.norm_pos {a : V3 ℝ} (h : 0 < a.dot a) : 0 < a.norm := Real.sqrt_pos.2 h

theorem V3.dot_smul_left (s : ℝ) (a b : V3 ℝ) : (V3.smul s a).dot b = s * a.dot b := by
  simp only [V3.dot, V3.smul]; ring

theorem V3.norm_smul (s : ℝ) (a : V3 ℝ) : (V3.smul s a).norm = |s| * a.norm := by
  unfold V3.norm
  rw [show (V3.smul s a).dot (V3.smul s a) = (s * s) * a.dot a by simp only [V3.dot, V3.smul]; ring,
    Real.sqrt_mul (mul_self_nonneg s), Real.sqrt_mul_self_eq_abs]

/-- Cauchy–Schwarz. -/
theorem V3.abs_dot_le (a b : V3 ℝ) : |a.dot b| ≤ a.norm * b.norm := by
  apply abs_le_of_sq_le_sq _ (mul_nonneg a.norm_nonneg b.norm_nonneg)
  have h1 : (a.norm * b.norm) ^ 2 = a.dot a * b.dot b := by
    rw [← V3.norm_sq, ← V3.norm_sq]; ring
  rw [h1]
  unfold V3.dot
  nlinarith [sq_nonneg (a.x * b.y - a.y * b.x), sq_nonneg (a.x * b.z - a.z * b.x),
    sq_nonneg (a.y * b.z - a.z * b.y)]

theorem V3.normalized_norm_le (a : V3 ℝ) : a.normalized.norm ≤ 1 := by
  unfold V3.normalized
  split_ifs with h
  · have := V3.norm_pos h
    rw [V3.norm_smul, abs_of_pos (by positivity)]
    field_simp; exact le_rfl
  · have : a.dot a = 0 := le_antisymm (not_lt.1 h) a.dot_self_nonneg
    unfold V3.norm; rw [this]; simp

/-- **C28, obstacle term.** 0 without an obstacle; otherwise strictly between 0 and 10000, exactly
5000 at the configured distance, and strictly decreasing in the distance. -/
theorem C28_obstacle_cost (params : CostParams) :
    (∀ d ≤ 0, distanceCost params d = 0) ∧
    (∀ d > 0, 0 < distanceCost params d ∧ distanceCost params d < 10000) ∧
    (0 < params.obstacle → distanceCost params params.obstacle = 5000) ∧
    (∀ d1 d2, 0 < d1 → d1 < d2 → distanceCost params d2 < distanceCost params d1) := by
  have hpos : ∀ d : ℝ, 0 < Real.sqrt (1 + d * d) := fun d => Real.sqrt_pos.2 (by nlinarith [mul_self_nonneg d])
  have hsq : ∀ d : ℝ, Real.sqrt (1 + d * d) ^ 2 = 1 + d * d := fun d =>
    Real.sq_sqrt (by nlinarith [mul_self_nonneg d])
  have hlt : ∀ d : ℝ, |d| < Real.sqrt (1 + d * d) := by
    intro d
    rw [← Real.sqrt_mul_self_eq_abs]
    exact Real.sqrt_lt_sqrt (mul_self_nonneg d) (by linarith)
  refine ⟨?_, ?_, ?_, ?_⟩
  · intro d hd; unfold distanceCost; dsimp only; rw [if_neg (not_lt.2 hd)]
  · intro d hd
    unfold distanceCost; dsimp only; rw [if_pos hd]
    generalize params.obstacle - d = x
    have h1 : -1 < x / Real.sqrt (1 + x * x) := by
      rw [lt_div_iff₀ (hpos x)]; have := (abs_lt.1 (hlt x)).1; linarith
    have h2 : x / Real.sqrt (1 + x * x) < 1 := by
      rw [div_lt_iff₀ (hpos x)]; have := (abs_lt.1 (hlt x)).2; linarith
    constructor <;> linarith
  · intro h; unfold distanceCost; dsimp only; rw [if_pos h]; simp
  · intro d1 d2 h1 h2
    unfold distanceCost; dsimp only
    rw [if_pos h1, if_pos (h1.trans h2)]
    have hxy : params.obstacle - d2 < params.obstacle - d1 := by linarith
    generalize params.obstacle - d2 = x at *
    generalize params.obstacle - d1 = y at *
    have : x / Real.sqrt (1 + x * x) < y / Real.sqrt (1 + y * y) := by
      rw [div_lt_div_iff₀ (hpos x) (hpos y)]
      -- x √(1+y²) < y √(1+x²)
      by_cases hx : 0 ≤ x
      · have hy : 0 < y := lt_of_le_of_lt hx hxy
        apply lt_of_pow_lt_pow_left₀ 2 (by have := hpos x; positivity)
        rw [mul_pow, mul_pow, hsq, hsq]
        nlinarith
      · push Not at hx
        by_cases hy : 0 ≤ y
        · have := mul_neg_of_neg_of_pos hx (hpos y)
          have := mul_nonneg hy (hpos x).le
          linarith
        · push Not at hy
          have h3 : (-y) * Real.sqrt (1 + x * x) < (-x) * Real.sqrt (1 + y * y) := by
            apply lt_of_pow_lt_pow_left₀ 2 (by have := hpos y; have : 0 < -x := by linarith
                                               positivity)
            rw [mul_pow, mul_pow, hsq, hsq]
            nlinarith
          linarith
    linarith

/-- The cost function gives finite costs exactly away from the goal. -/
theorem C28_undefined_at_goal (candidate : PolarPoint ℝ) (d : ℝ) (goal position velocity : V3 ℝ)
    (params : CostParams) (closest_pt : V3 ℝ) (facing : Bool) :
    costFunction candidate d goal position velocity params closest_pt facing = none ↔
      goal = position := by
  have hz : (goal.minus position).norm = 0 ↔ goal = position := by
    constructor
    · intro h
      have h0 : (goal.minus position).dot (goal.minus position) = 0 := by
        rw [← V3.norm_sq, h]; ring
      unfold V3.dot V3.minus at h0
      dsimp only at h0
      have hx : (goal.x - position.x) = 0 := by nlinarith [sq_nonneg (goal.x - position.x), sq_nonneg (goal.y - position.y), sq_nonneg (goal.z - position.z)]
      have hy : (goal.y - position.y) = 0 := by nlinarith [sq_nonneg (goal.x - position.x), sq_nonneg (goal.y - position.y), sq_nonneg (goal.z - position.z)]
      have hzz : (goal.z - position.z) = 0 := by nlinarith [sq_nonneg (goal.x - position.x), sq_nonneg (goal.y - position.y), sq_nonneg (goal.z - position.z)]
      ext <;> linarith
    · rintro rfl; simp [V3.norm, V3.dot, V3.minus]
  unfold costFunction
  dsimp only
  split_ifs with h1 h2
  · simpa using hz.1 h2
  · simp only [reduceCtorEq, false_iff]; exact fun h => h2 (hz.2 h)
  · simp only [reduceCtorEq, false_iff]; intro h; rw [hz.2 h] at h1; norm_num at h1

/-- **C28, other terms.** For non-negative cost parameters the remaining cost is non-negative and
bounded below by each of its parts: the pitch deviation from the goal direction is always charged in
full, the yaw deviation from the goal at least by half (in full when an obstacle faces the goal, in
which case the line term vanishes). -/
theorem C28_other_costs (candidate : PolarPoint ℝ) (d : ℝ) (goal position velocity : V3 ℝ)
    (params : CostParams) (closest_pt : V3 ℝ) (facing : Bool)
    (h1 : 0 ≤ params.yaw) (h2 : 0 ≤ params.pitch) (h3 : 0 ≤ params.velocity)
    (hg : goal ≠ position) :
    ∃ c, costFunction candidate d goal position velocity params closest_pt facing =
        some (distanceCost params d, c) ∧ 0 ≤ c ∧
      params.pitch * (candidate.e - (cartesianToPolarHistogram goal position).e) ^ 2 ≤ c ∧
      (1 / 2) * params.yaw *
        (angleDifference candidate.z (cartesianToPolarHistogram goal position).z) ^ 2 ≤ c ∧
      (facing = true → params.yaw *
        (angleDifference candidate.z (cartesianToPolarHistogram goal position).z) ^ 2 ≤ c) := by
  have hne : costFunction candidate d goal position velocity params closest_pt facing ≠ none :=
    fun h => hg ((C28_undefined_at_goal _ _ _ _ _ _ _ _).1 h)
  have hv : 0 ≤ params.velocity *
      (velocity.norm - (polarHistogramToCartesian candidate ⟨0, 0, 0⟩).normalized.dot velocity) := by
    apply mul_nonneg h3
    have c1 := (abs_le.1 (V3.abs_dot_le (polarHistogramToCartesian candidate ⟨0, 0, 0⟩).normalized velocity)).2
    have c2 := V3.normalized_norm_le (polarHistogramToCartesian candidate ⟨0, 0, 0⟩)
    nlinarith [velocity.norm_nonneg]
  revert hne
  unfold costFunction
  dsimp only
  have hgn : 0 ≤ (goal.minus position).norm := V3.norm_nonneg _
  generalize (goal.minus position).norm = g at *
  generalize params.velocity *
      (velocity.norm - (polarHistogramToCartesian candidate ⟨0, 0, 0⟩).normalized.dot velocity) = v at *
  generalize angleDifference candidate.z (cartesianToPolarHistogram goal position).z = a at *
  generalize angleDifference candidate.z (cartesianToPolarHistogram closest_pt position).z = b at *
  generalize (candidate.e - (cartesianToPolarHistogram goal position).e) = p at *
  have hp : 0 ≤ params.pitch * p ^ 2 := by positivity
  have key : ∀ pc : ℝ, params.pitch * p ^ 2 ≤ pc →
      0 ≤ v + (1 - if (!facing) = true then 1 / 2 else 0) * params.yaw * a * a +
        (if (!facing) = true then 1 / 2 else 0) * params.yaw * b * b + pc ∧
      params.pitch * p ^ 2 ≤ v + (1 - if (!facing) = true then 1 / 2 else 0) * params.yaw * a * a +
        (if (!facing) = true then 1 / 2 else 0) * params.yaw * b * b + pc ∧
      1 / 2 * params.yaw * a ^ 2 ≤ v + (1 - if (!facing) = true then 1 / 2 else 0) * params.yaw * a * a +
        (if (!facing) = true then 1 / 2 else 0) * params.yaw * b * b + pc ∧
      (facing = true → params.yaw * a ^ 2 ≤
        v + (1 - if (!facing) = true then 1 / 2 else 0) * params.yaw * a * a +
        (if (!facing) = true then 1 / 2 else 0) * params.yaw * b * b + pc) := by
    intro pc hpc
    have ha : 0 ≤ params.yaw * a ^ 2 := by positivity
    have hb : 0 ≤ params.yaw * b ^ 2 := by positivity
    cases facing
    · simp only [Bool.not_false, if_true, Bool.false_eq_true, false_implies, and_true]
      refine ⟨?_, ?_, ?_⟩ <;> nlinarith
    · simp only [Bool.not_true, Bool.false_eq_true, if_false, true_implies]
      refine ⟨?_, ?_, ?_, ?_⟩ <;> nlinarith
  by_cases g1 : g < 5
  · rw [if_pos g1]
    by_cases g2 : g = 0
    · rw [if_pos g2]; intro h; exact absurd rfl h
    · rw [if_neg g2]
      intro _
      refine ⟨_, rfl, key _ ?_⟩
      have hg0 : 0 < (1 / 5 * g) * (1 / 5 * g) := by positivity
      rw [le_div_iff₀ hg0]
      have : (1 / 5 * g) * (1 / 5 * g) ≤ 1 := by nlinarith
      nlinarith
  · rw [if_neg g1]
    intro _
    exact ⟨_, rfl, key _ (by nlinarith)⟩

/-- **C28, exact value.** Away from the goal the other cost of a direction (with any positive
radius) is the sum of three terms: the speed lost by turning into it (`|v|` minus the component of
`v` along the direction), the squared azimuth deviation from the goal - averaged with the deviation
from the line to the goal unless an obstacle faces the goal -, and the squared elevation deviation
from the goal, scaled up by `(5/distance)²` when the goal is nearer than 5 m. -/
theorem C28_other_costs_exact (candidate : PolarPoint ℝ) (d : ℝ) (goal position velocity : V3 ℝ)
    (params : CostParams) (closest_pt : V3 ℝ) (facing : Bool) (hr : 0 < candidate.r)
    (hg : goal ≠ position) :
    let speed := Real.sqrt (velocity.x ^ 2 + velocity.y ^ 2 + velocity.z ^ 2)
    let along := Real.cos (candidate.e * degToRad) * Real.sin (candidate.z * degToRad) * velocity.x +
      Real.cos (candidate.e * degToRad) * Real.cos (candidate.z * degToRad) * velocity.y +
      Real.sin (candidate.e * degToRad) * velocity.z
    let goalDist := Real.sqrt ((goal.x - position.x) ^ 2 + (goal.y - position.y) ^ 2 +
      (goal.z - position.z) ^ 2)
    let toGoal := angleDifference candidate.z (cartesianToPolarHistogram goal position).z
    let toLine := angleDifference candidate.z (cartesianToPolarHistogram closest_pt position).z
    let climb := candidate.e - (cartesianToPolarHistogram goal position).e
    costFunction candidate d goal position velocity params closest_pt facing =
      some (distanceCost params d,
        params.velocity * (speed - along) +
        params.yaw * (if facing = true then toGoal ^ 2 else (toGoal ^ 2 + toLine ^ 2) / 2) +
        params.pitch * climb ^ 2 * (if goalDist < 5 then (5 / goalDist) ^ 2 else 1)) := by
  intro speed along goalDist toGoal toLine climb
  have hs : velocity.norm = speed := by
    unfold V3.norm V3.dot; congr 1; ring
  have hgd : (goal.minus position).norm = goalDist := by
    unfold V3.norm V3.dot V3.minus; congr 1; ring
  have hal : (polarHistogramToCartesian candidate ⟨0, 0, 0⟩).normalized.dot velocity = along := by
    have h1 := Real.sin_sq_add_cos_sq (candidate.e * degToRad)
    have h2 := Real.sin_sq_add_cos_sq (candidate.z * degToRad)
    have hd : (polarHistogramToCartesian candidate ⟨0, 0, 0⟩).dot
        (polarHistogramToCartesian candidate ⟨0, 0, 0⟩) = candidate.r ^ 2 := by
      unfold polarHistogramToCartesian V3.dot
      dsimp only
      generalize Real.sin (candidate.e * degToRad) = a at *
      generalize Real.cos (candidate.e * degToRad) = b at *
      generalize Real.sin (candidate.z * degToRad) = a' at *
      generalize Real.cos (candidate.z * degToRad) = b' at *
      have e : (0 + candidate.r * b * a') * (0 + candidate.r * b * a') +
        (0 + candidate.r * b * b') * (0 + candidate.r * b * b') +
        (0 + candidate.r * a) * (0 + candidate.r * a) =
        candidate.r ^ 2 * (b ^ 2 * (a' ^ 2 + b' ^ 2) + a ^ 2) := by ring
      rw [e, h2, mul_one, add_comm, h1, mul_one]
    have hn : (polarHistogramToCartesian candidate ⟨0, 0, 0⟩).norm = candidate.r := by
      unfold V3.norm; rw [hd, Real.sqrt_sq hr.le]
    unfold V3.normalized
    rw [if_pos (by rw [hd]; positivity), V3.dot_smul_left, hn]
    unfold polarHistogramToCartesian V3.dot
    dsimp only
    rw [div_mul_eq_mul_div, div_eq_iff hr.ne']
    ring
  have hne : costFunction candidate d goal position velocity params closest_pt facing ≠ none :=
    fun h => hg ((C28_undefined_at_goal _ _ _ _ _ _ _ _).1 h)
  revert hne
  unfold costFunction
  dsimp only
  rw [hs, hgd, hal]
  change _ → _ = some (_, params.velocity * (speed - along) + params.yaw * (if facing = true then
    toGoal ^ 2 else (toGoal ^ 2 + toLine ^ 2) / 2) + params.pitch * climb ^ 2 * _)
  by_cases g1 : goalDist < 5
  · rw [if_pos g1, if_pos g1]
    by_cases g2 : goalDist = 0
    · rw [if_pos g2]; intro h; exact absurd rfl h
    · rw [if_neg g2]
      intro _
      congr 2
      have e1 : params.pitch * climb * climb / (1 / 5 * goalDist * (1 / 5 * goalDist)) =
          params.pitch * climb ^ 2 * (5 / goalDist) ^ 2 := by field_simp
      rw [← e1]
      cases facing <;> simp only [Bool.not_false, Bool.not_true, if_true, Bool.false_eq_true, if_false]
        <;> ring
  · rw [if_neg g1, if_neg g1]
    intro _
    congr 2
    cases facing <;> simp only [Bool.not_false, Bool.not_true, if_true, Bool.false_eq_true, if_false]
      <;> ring

/-- Consequence for the planner: with the obstacle parameter at `d₀`, of two directions that differ
only in obstacle distance the farther one is never more expensive. -/
theorem C28_farther_is_cheaper (candidate : PolarPoint ℝ) (d1 d2 : ℝ) (goal position velocity : V3 ℝ)
    (params : CostParams) (closest_pt : V3 ℝ) (facing : Bool) (h1 : 0 < d1) (h2 : d1 < d2)
    (a b a' b' : ℝ)
    (e1 : costFunction candidate d1 goal position velocity params closest_pt facing = some (a, b))
    (e2 : costFunction candidate d2 goal position velocity params closest_pt facing = some (a', b')) :
    a' < a ∧ b' = b := by
  have key : ∀ d x y, costFunction candidate d goal position velocity params closest_pt facing
      = some (x, y) → x = distanceCost params d ∧
        ∀ d', ∃ x', costFunction candidate d' goal position velocity params closest_pt facing
          = some (x', y) := by
    intro d x y h
    unfold costFunction at h ⊢
    dsimp only at h ⊢
    split_ifs at h ⊢ with g1 g2 <;>
      (simp only [Option.some.injEq, Prod.mk.injEq] at h
       exact ⟨h.1.symm, fun d' => ⟨_, by rw [← h.2]⟩⟩)
  obtain ⟨k1, k2⟩ := key _ _ _ e1
  obtain ⟨k3, -⟩ := key _ _ _ e2
  obtain ⟨x', hx'⟩ := k2 d2
  rw [e2] at hx'
  simp only [Option.some.injEq, Prod.mk.injEq] at hx'
  exact ⟨by rw [k1, k3]; exact (C28_obstacle_cost params).2.2.2 d1 d2 h1 h2, hx'.2⟩

/-- The perfect direction costs nothing: pointing at the goal with the velocity already along it. -/
theorem C28_perfect_direction (goal position : V3 ℝ) (s : ℝ) (hs : 0 ≤ s) (params : CostParams)
    (facing : Bool) (hg : goal ≠ position) :
    ∀ c, costFunction (cartesianToPolarHistogram goal position) 0 goal position
      (V3.smul s (goal.minus position)) params goal facing = some c → c = (0, 0) := by
  have hpc : polarHistogramToCartesian (cartesianToPolarHistogram goal position) ⟨0, 0, 0⟩ =
      goal.minus position := by
    have h0 := C05_cartesian_polar_round_trip goal position
    have : ∀ (p : PolarPoint ℝ) (o : V3 ℝ), polarHistogramToCartesian p ⟨0, 0, 0⟩ =
        (polarHistogramToCartesian p o).minus o := by
      intro p o; simp [polarHistogramToCartesian, V3.minus]
    rw [this _ position, h0]
  have hself : ∀ x : ℝ, angleDifference x x = 0 := by
    intro x; simp [angleDifference, fmod]
  have hpos : 0 < (goal.minus position).dot (goal.minus position) := by
    apply lt_of_le_of_ne (V3.dot_self_nonneg _)
    intro h
    apply hg
    apply (C28_undefined_at_goal ⟨0, 0, 0⟩ 0 goal position ⟨0, 0, 0⟩ params goal true).1
    unfold costFunction
    have hn : (goal.minus position).norm = 0 := by unfold V3.norm; rw [← h]; simp
    simp [hn]
  have hvel : (V3.smul s (goal.minus position)).norm -
      (goal.minus position).normalized.dot (V3.smul s (goal.minus position)) = 0 := by
    have hn := V3.norm_pos hpos
    rw [V3.norm_smul, abs_of_nonneg hs]
    unfold V3.normalized
    rw [if_pos hpos, V3.dot_smul_left]
    have : (goal.minus position).dot (V3.smul s (goal.minus position)) =
        s * ((goal.minus position).norm * (goal.minus position).norm) := by
      rw [V3.norm_sq]; simp only [V3.dot, V3.smul]; ring
    rw [this]; field_simp; ring
  intro c hc
  unfold costFunction at hc
  dsimp only at hc
  rw [hpc, hvel, hself] at hc
  simp only [distanceCost, lt_irrefl, gt_iff_lt, if_false, mul_zero, sub_self, add_zero, zero_div] at hc
  split_ifs at hc <;> simpa using hc.symm

/-- Non-vacuity: a concrete situation away from the goal with the default parameters. -/
example : ∃ c, costFunction ⟨0, 0, 1⟩ 3 ⟨10, 0, 0⟩ ⟨0, 0, 0⟩ ⟨1, 0, 0⟩ ⟨1 / 2, 3, 3 / 2, 5⟩ ⟨10, 0, 0⟩ true =
    some (distanceCost ⟨1 / 2, 3, 3 / 2, 5⟩ 3, c) ∧ 0 ≤ c := by
  obtain ⟨c, h1, h2, -⟩ := C28_other_costs ⟨0, 0, 1⟩ 3 ⟨10, 0, 0⟩ ⟨0, 0, 0⟩ ⟨1, 0, 0⟩
    ⟨1 / 2, 3, 3 / 2, 5⟩ ⟨10, 0, 0⟩ true (by norm_num) (by norm_num) (by norm_num) (by simp)
  exact ⟨c, h1, h2⟩

end Avoidance
