import Verif.LocalAsk
import Mathlib.Tactic.Linarith
import Mathlib.Tactic.Ring
import Mathlib.Tactic.NormNum
import Mathlib.Tactic.FieldSimp

/-!
# What the local planner prints about a point (C118)
-/

namespace Avoidance

/-- The angle `edge` is the upper edge of the cell of the histogram, 6° wide, that contains `angle`. -/
def UpperEdge (edge : ℤ) (angle : ℝ) : Prop := (6 : ℤ) ∣ edge ∧ (edge : ℝ) - 6 ≤ angle ∧ angle < edge

theorem upperEdge_iff (b : ℤ) (x : ℝ) (h : b = ⌊x⌋) (edge : ℤ) : UpperEdge edge x ↔ 6 ∣ edge ∧ edge - 6 ≤ b ∧ b < edge := by
  subst h
  unfold UpperEdge
  rw [Int.le_floor, Int.floor_lt]
  push_cast
  rfl

theorem askEdge_iff (x : ℝ) : UpperEdge (askEdge ⌊x⌋) x ↔ 0 ≤ x ∨ (6 : ℤ) ∣ ⌊x⌋ := by
  rw [upperEdge_iff ⌊x⌋ x rfl]
  have h0 : 0 ≤ x ↔ 0 ≤ ⌊x⌋ := Int.floor_nonneg.symm
  rw [h0]
  generalize ⌊x⌋ = b
  unfold askEdge
  rcases le_or_gt 0 b with hb | hb
  · rw [Int.tmod_eq_emod_of_nonneg hb]
    constructor
    · exact fun _ => Or.inl hb
    · intro _; omega
  · have hm : Int.tmod b 6 = -((-b) % 6) := by
      rw [← Int.tmod_eq_emod_of_nonneg (by omega : 0 ≤ -b), Int.neg_tmod, neg_neg]
    rw [hm]
    omega

theorem askEdge_late (x : ℝ) (hx : x < 0) (h : ¬ (6 : ℤ) ∣ ⌊x⌋) : UpperEdge (askEdge ⌊x⌋ - 6) x := by
  rw [upperEdge_iff ⌊x⌋ x rfl]
  have h0 : ⌊x⌋ < 0 := by rw [Int.floor_lt]; simpa using hx
  revert h h0
  generalize ⌊x⌋ = b
  intro h hb
  unfold askEdge
  have hm : Int.tmod b 6 = -((-b) % 6) := by
    rw [← Int.tmod_eq_emod_of_nonneg (by omega : 0 ≤ -b), Int.neg_tmod, neg_neg]
  rw [hm]
  omega

theorem askAtan_eq (dz d : ℝ) (hd : 0 ≤ d) (h : d ≠ 0 ∨ dz ≠ 0) : askAtan dz d = some (atan2 dz d) := by
  unfold askAtan atan2
  by_cases h0 : d = 0
  · rw [if_pos h0]
    have hz : dz ≠ 0 := h.resolve_left (fun h => h h0)
    subst h0
    by_cases h1 : 0 < dz
    · rw [if_pos h1]
      congr 1
      exact (Complex.arg_eq_pi_div_two_iff.mpr ⟨rfl, h1⟩).symm
    · have h2 : dz < 0 := lt_of_le_of_ne (not_lt.mp h1) hz
      rw [if_neg h1, if_pos h2]
      congr 1
      exact (Complex.arg_eq_neg_pi_div_two_iff.mpr ⟨rfl, h2⟩).symm
  · rw [if_neg h0]
    have h1 : 0 < d := lt_of_le_of_ne hd (Ne.symm h0)
    congr 1
    have h2 := Complex.tan_arg ⟨d, dz⟩
    have h3 : |Complex.arg ⟨d, dz⟩| < Real.pi / 2 := Complex.abs_arg_lt_pi_div_two_iff.mpr (Or.inl h1)
    rw [abs_lt] at h3
    have h4 := Real.arctan_tan h3.1 h3.2
    rw [h2] at h4
    exact h4

/-- The answer in terms of the direction in which the histogram sees the point. -/
theorem localAsk_eq (position p : V3 ℝ) (h : p ≠ position) : localAsk position p =
    some (askEdge ⌊(cartesianToPolarHistogram p position).e⌋, askEdge ⌊(cartesianToPolarHistogram p position).z⌋) := by
  unfold localAsk
  rw [askAtan_eq _ _ (Real.sqrt_nonneg _)]
  · unfold cartesianToPolarHistogram radToDeg
    dsimp only [Option.map]
    rw [mul_div_assoc, mul_div_assoc]
  · by_contra hc
    push Not at hc
    obtain ⟨h1, h2⟩ := hc
    rw [Real.sqrt_eq_zero (by positivity)] at h1
    have h3 : p.x - position.x = 0 := by nlinarith [sq_nonneg (p.x - position.x), sq_nonneg (p.y - position.y)]
    have h4 : p.y - position.y = 0 := by nlinarith [sq_nonneg (p.x - position.x), sq_nonneg (p.y - position.y)]
    exact h (V3.ext (by linarith) (by linarith) (by linarith))

/-- **C118 (partial).** A point that is not the position of the vehicle is answered with two numbers. Each of them is the upper edge of the cell of the histogram that the point is in, if the angle is not negative
(or its whole part happens to be a multiple of six). What is missing are all other negative angles: `C118_negative_violated`. -/
theorem C118_edges_partial (position p : V3 ℝ) (h : p ≠ position) : ∃ e z, localAsk position p = some (e, z) ∧
    (UpperEdge e (cartesianToPolarHistogram p position).e ↔ 0 ≤ (cartesianToPolarHistogram p position).e ∨ (6 : ℤ) ∣ ⌊(cartesianToPolarHistogram p position).e⌋) ∧
    (UpperEdge z (cartesianToPolarHistogram p position).z ↔ 0 ≤ (cartesianToPolarHistogram p position).z ∨ (6 : ℤ) ∣ ⌊(cartesianToPolarHistogram p position).z⌋) :=
  ⟨_, _, localAsk_eq position p h, askEdge_iff _, askEdge_iff _⟩

/-- **C118, finding: negative angles.** Expected: the upper edge of the cell. For a negative angle whose whole part is not a multiple of six the answer is the upper edge of the next cell. -/
theorem C118_negative_violated (position p : V3 ℝ) (h : p ≠ position) : ∃ e z, localAsk position p = some (e, z) ∧
    ((cartesianToPolarHistogram p position).e < 0 → ¬ (6 : ℤ) ∣ ⌊(cartesianToPolarHistogram p position).e⌋ → UpperEdge (e - 6) (cartesianToPolarHistogram p position).e) ∧
    ((cartesianToPolarHistogram p position).z < 0 → ¬ (6 : ℤ) ∣ ⌊(cartesianToPolarHistogram p position).z⌋ → UpperEdge (z - 6) (cartesianToPolarHistogram p position).z) :=
  ⟨_, _, localAsk_eq position p h, askEdge_late _, askEdge_late _⟩

theorem arg_deg (x y a : ℝ) (h : Complex.arg ⟨x, y⟩ = a * (Real.pi / 180)) : atan2 y x * radToDeg = a := by
  unfold atan2 radToDeg
  rw [h]
  have := Real.pi_ne_zero
  field_simp

theorem deg_45 {r : ℝ} (hr : 0 < r) : atan2 r r * radToDeg = 45 ∧ atan2 (-r) r * radToDeg = -45 := by
  have h1 : Real.arctan (r / r) = Real.pi / 4 := by rw [div_self hr.ne', Real.arctan_one]
  have h2 : Real.arctan (-r / r) = -(Real.pi / 4) := by rw [neg_div, Real.arctan_neg, h1]
  have key : ∀ y : ℝ, Complex.arg ⟨r, y⟩ = Real.arctan (y / r) := by
    intro y
    have := askAtan_eq y r hr.le (Or.inl hr.ne')
    unfold askAtan atan2 at this
    rw [if_neg hr.ne'] at this
    exact (Option.some.inj this).symm
  constructor
  · exact arg_deg r r 45 (by rw [key, h1]; ring)
  · exact arg_deg r (-r) (-45) (by rw [key, h2]; ring)

/-- A point 45° to the right: the answer, 48°, is right. The mirrored point, 45° to the left, is in the cell that ends at -42°; the answer is -36°. -/
theorem C118_negative_witness : localAsk ⟨0, 0, 0⟩ ⟨1, 1, 0⟩ = some (6, 48) ∧ localAsk ⟨0, 0, 0⟩ ⟨-1, 1, 0⟩ = some (6, -36) ∧
    (cartesianToPolarHistogram ⟨-1, 1, 0⟩ ⟨0, 0, 0⟩).z = -45 := by
  have hz : ∀ x : ℝ, (cartesianToPolarHistogram ⟨x, 1, 0⟩ ⟨0, 0, 0⟩).e = 0 := by
    intro x
    unfold cartesianToPolarHistogram
    dsimp only
    refine arg_deg _ _ 0 ?_
    rw [zero_mul, Complex.arg_eq_zero_iff]
    exact ⟨Real.sqrt_nonneg _, by norm_num⟩
  have h1 : (cartesianToPolarHistogram ⟨1, 1, 0⟩ ⟨0, 0, 0⟩).z = 45 := by
    have := (deg_45 (r := 1) one_pos).1
    unfold cartesianToPolarHistogram
    simpa using this
  have h2 : (cartesianToPolarHistogram ⟨-1, 1, 0⟩ ⟨0, 0, 0⟩).z = -45 := by
    have := (deg_45 (r := 1) one_pos).2
    unfold cartesianToPolarHistogram
    simpa using this
  refine ⟨?_, ?_, h2⟩
  · rw [localAsk_eq _ _ (fun h => by have := congrArg V3.x h; norm_num at this), hz, h1, show (45 : ℝ) = ((45 : ℤ) : ℝ) by norm_num, Int.floor_intCast, Int.floor_zero]
    decide
  · rw [localAsk_eq _ _ (fun h => by have := congrArg V3.x h; norm_num at this), hz, h2, show (-45 : ℝ) = ((-45 : ℤ) : ℝ) by norm_num, Int.floor_intCast, Int.floor_zero]
    decide

/-- **C118, finding: straight above, and the own position.** Asked about a point straight above the vehicle, the planner answers an elevation of 96°, which no direction has; asked about the position of
the vehicle itself it converts NaN to an integer. -/
theorem C118_above_violated (position : V3 ℝ) : (∀ d, 0 < d → ∃ z, localAsk position ⟨position.x, position.y, position.z + d⟩ = some (96, z)) ∧ localAsk position position = none := by
  constructor
  · intro d hd
    refine ⟨askEdge ⌊atan2 (position.x - position.x) (position.y - position.y) * 180 / Real.pi⌋, ?_⟩
    unfold localAsk askAtan
    dsimp only
    rw [if_pos (by simp), if_pos (by linarith), Option.map_some, show Real.pi / 2 * 180 / Real.pi = ((90 : ℤ) : ℝ) by have := Real.pi_ne_zero; field_simp; norm_num, Int.floor_intCast]
    rfl
  · unfold localAsk askAtan
    rw [if_pos (by simp), if_neg (by simp), if_neg (by simp)]
    rfl

/-- Asked about a point, as long as it is not the own position, the elevation told is between -84° and 96°, the azimuth between -174° and 186°. -/
theorem C118_range (position p : V3 ℝ) (h : p ≠ position) : ∃ e z, localAsk position p = some (e, z) ∧ -84 ≤ e ∧ e ≤ 96 ∧ -174 ≤ z ∧ z ≤ 186 := by
  have hpi := Real.pi_pos
  have hz : -180 ≤ (cartesianToPolarHistogram p position).z ∧ (cartesianToPolarHistogram p position).z ≤ 180 := by
    unfold cartesianToPolarHistogram atan2 radToDeg
    dsimp only
    have h1 := Complex.neg_pi_lt_arg (⟨p.y - position.y, p.x - position.x⟩ : ℂ)
    have h2 := Complex.arg_le_pi (⟨p.y - position.y, p.x - position.x⟩ : ℂ)
    rw [mul_div_assoc', le_div_iff₀ hpi, div_le_iff₀ hpi]
    constructor <;> linarith
  have he : -90 ≤ (cartesianToPolarHistogram p position).e ∧ (cartesianToPolarHistogram p position).e ≤ 90 := by
    unfold cartesianToPolarHistogram atan2 radToDeg
    dsimp only
    have h0 : 0 ≤ (⟨Real.sqrt ((p.x - position.x) ^ 2 + (p.y - position.y) ^ 2), p.z - position.z⟩ : ℂ).re := Real.sqrt_nonneg _
    have h1 := Complex.abs_arg_le_pi_div_two_iff.mpr h0
    rw [abs_le] at h1
    rw [mul_div_assoc', le_div_iff₀ hpi, div_le_iff₀ hpi]
    constructor <;> linarith [h1.1, h1.2]
  have key : ∀ (b : ℤ), b - 6 < askEdge b - 6 ∧ askEdge b - 6 ≤ b + 5 ∧ (6 : ℤ) ∣ askEdge b ∧ (0 ≤ b → askEdge b ≤ b + 6) := by
    intro b
    unfold askEdge
    rcases le_or_gt 0 b with hb | hb
    · rw [Int.tmod_eq_emod_of_nonneg hb]; omega
    · have hm : Int.tmod b 6 = -((-b) % 6) := by
        rw [← Int.tmod_eq_emod_of_nonneg (by omega : 0 ≤ -b), Int.neg_tmod, neg_neg]
      rw [hm]; omega
  refine ⟨_, _, localAsk_eq position p h, ?_⟩
  have e1 : -90 ≤ ⌊(cartesianToPolarHistogram p position).e⌋ := by rw [Int.le_floor]; push_cast; exact he.1
  have e2 : ⌊(cartesianToPolarHistogram p position).e⌋ ≤ 90 := by
    have := Int.floor_le_floor he.2
    simpa using this
  have z1 : -180 ≤ ⌊(cartesianToPolarHistogram p position).z⌋ := by rw [Int.le_floor]; push_cast; exact hz.1
  have z2 : ⌊(cartesianToPolarHistogram p position).z⌋ ≤ 180 := by
    have := Int.floor_le_floor hz.2
    simpa using this
  have k1 := key ⌊(cartesianToPolarHistogram p position).e⌋
  have k2 := key ⌊(cartesianToPolarHistogram p position).z⌋
  revert e1 e2 z1 z2 k1 k2
  generalize ⌊(cartesianToPolarHistogram p position).e⌋ = a
  generalize ⌊(cartesianToPolarHistogram p position).z⌋ = b
  generalize askEdge a = x
  generalize askEdge b = y
  omega

end Avoidance
