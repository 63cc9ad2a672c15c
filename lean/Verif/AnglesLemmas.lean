import Verif.Angles

/-! Helper lemmas for the angle properties. -/

namespace Avoidance

variable {K : Type*} [Field K] [LinearOrder K] [IsStrictOrderedRing K] [FloorRing K]

/-- Generic centred wrap: range. -/
theorem centredWrap_range {T : K} (hT : 0 < T) (a : K) :
    -(T / 2) ≤ a - T * (⌊a / T + 1 / 2⌋ : K) ∧ a - T * (⌊a / T + 1 / 2⌋ : K) < T / 2 := by
  have h1 := Int.floor_le (a / T + 1 / 2)
  have h2 := Int.lt_floor_add_one (a / T + 1 / 2)
  set n : K := (⌊a / T + 1 / 2⌋ : K)
  have ha : a = T * (a / T) := by field_simp
  constructor
  · have : T * n ≤ T * (a / T + 1 / 2) := mul_le_mul_of_nonneg_left h1 hT.le
    have e : T * (a / T + 1 / 2) = a + T / 2 := by rw [mul_add, ← ha]; ring
    rw [e] at this
    linarith
  · have : T * (a / T + 1 / 2) < T * (n + 1) := mul_lt_mul_of_pos_left h2 hT
    have e : T * (a / T + 1 / 2) = a + T / 2 := by rw [mul_add, ← ha]; ring
    rw [e] at this
    linarith

/-- Two numbers of an interval of length `T` that differ by a multiple of `T` are equal. -/
theorem eq_of_turns {T lo x y : K} (hT : 0 < T) (n : ℤ)
    (hx : lo ≤ x) (hx' : x < lo + T) (hy : lo ≤ y) (hy' : y < lo + T)
    (h : x = y + T * n) : x = y := by
  have hn : n = 0 := by
    by_contra hne
    rcases lt_or_gt_of_ne hne with hneg | hpos
    · have : (n : K) ≤ -1 := by exact_mod_cast (by omega : n ≤ -1)
      have : T * n ≤ T * (-1) := mul_le_mul_of_nonneg_left this hT.le
      linarith
    · have : (1 : K) ≤ n := by exact_mod_cast (by omega : 1 ≤ n)
      have : T * 1 ≤ T * n := mul_le_mul_of_nonneg_left this hT.le
      linarith
  simp [h, hn]

/-- `fmod x 360` is congruent to `x`, is smaller than a turn, and has the sign of `x`. -/
theorem fmod_spec (x : K) :
    (∃ n : ℤ, x = fmod x 360 + 360 * n) ∧ (0 ≤ x → 0 ≤ fmod x 360 ∧ fmod x 360 < 360) ∧
      (x < 0 → -360 < fmod x 360 ∧ fmod x 360 ≤ 0) := by
  have hx : x = 360 * (x / 360) := by field_simp
  refine ⟨?_, ?_, ?_⟩
  · unfold fmod
    split
    · exact ⟨⌊x / 360⌋, by ring⟩
    · exact ⟨⌈x / 360⌉, by ring⟩
  · intro h0
    have : 0 ≤ x / 360 := by positivity
    unfold fmod
    rw [if_pos this]
    have h1 := Int.floor_le (x / 360)
    have h2 := Int.lt_floor_add_one (x / 360)
    constructor <;> linarith
  · intro h0
    have : ¬ 0 ≤ x / 360 := by
      intro h; have := mul_nonneg (by norm_num : (0:K) ≤ 360) h; linarith
    unfold fmod
    rw [if_neg this]
    have h1 := Int.le_ceil (x / 360)
    have h2 := Int.ceil_lt_add_one (x / 360)
    constructor <;> linarith

theorem angleDifference_range (a b : K) :
    -180 ≤ angleDifference a b ∧ angleDifference a b < 180 := by
  obtain ⟨_, hp, hn⟩ := fmod_spec (a - b)
  have hlt : -360 < fmod (a - b) 360 ∧ fmod (a - b) 360 < 360 := by
    rcases le_or_gt 0 (a - b) with h | h
    · have := hp h; constructor <;> linarith
    · have := hn h; constructor <;> linarith
  obtain ⟨h1, h2⟩ := hlt
  unfold angleDifference
  simp only []
  split_ifs with c1 c2 c3 <;> constructor <;> linarith

theorem angleDifference_congr (a b : K) : ∃ n : ℤ, a - b = angleDifference a b + 360 * n := by
  obtain ⟨⟨n, hn⟩, _, _⟩ := fmod_spec (a - b)
  unfold angleDifference
  simp only []
  split_ifs
  · exact ⟨n, hn⟩
  · exact ⟨n + 1, by push_cast; linarith⟩
  · exact ⟨n, hn⟩
  · exact ⟨n - 1, by push_cast; linarith⟩

end Avoidance
