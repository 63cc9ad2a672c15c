import Verif.AnglesLemmas

/-!
# Properties of the angle arithmetic (C01, C02, C08)

Specification vocabulary: two angles are the same direction when they differ by a whole
number of turns.
-/

namespace Avoidance

/-- Specification: `a` and `b` differ by a whole number of turns of size `turn`. -/
def SameDirection {K : Type*} [Ring K] (turn a b : K) : Prop := ∃ n : ℤ, a = b + turn * n

variable {K : Type*} [Field K] [LinearOrder K] [IsStrictOrderedRing K] [FloorRing K]

/-- C01: for every angle, `wrapAngleToPlusMinus180` returns *the* angle of [-180,180) with the
same direction: it is in range, has the same direction, and is the only such angle. -/
theorem C01_wrap180_canonical (a : K) :
    (-180 ≤ wrap180 a ∧ wrap180 a < 180 ∧ SameDirection 360 a (wrap180 a)) ∧
      ∀ b : K, -180 ≤ b → b < 180 → SameDirection 360 a b → b = wrap180 a := by
  have hr := centredWrap_range (by norm_num : (0:K) < 360) a
  have h1 : -180 ≤ wrap180 a := by unfold wrap180; linarith [hr.1]
  have h2 : wrap180 a < 180 := by unfold wrap180; linarith [hr.2]
  have h3 : a = wrap180 a + 360 * (⌊a / 360 + 1 / 2⌋ : K) := by unfold wrap180; ring
  refine ⟨⟨h1, h2, ⌊a / 360 + 1 / 2⌋, h3⟩, ?_⟩
  rintro b hb1 hb2 ⟨n, hn⟩
  refine eq_of_turns (T := 360) (lo := -180) (by norm_num) (⌊a / 360 + 1 / 2⌋ - n) hb1
    (by linarith) h1 (by linarith) ?_
  push_cast
  linarith

/-- C01 (radians): the same for `wrapAngleToPlusMinusPI` and [-π,π). -/
theorem C01_wrapPi_canonical (a : ℝ) :
    (-Real.pi ≤ wrapPi a ∧ wrapPi a < Real.pi ∧ SameDirection (2 * Real.pi) a (wrapPi a)) ∧
      ∀ b : ℝ, -Real.pi ≤ b → b < Real.pi → SameDirection (2 * Real.pi) a b → b = wrapPi a := by
  have hpi := Real.pi_pos
  have hr := centredWrap_range (by linarith : (0:ℝ) < 2 * Real.pi) a
  have h1 : -Real.pi ≤ wrapPi a := by unfold wrapPi; linarith [hr.1]
  have h2 : wrapPi a < Real.pi := by unfold wrapPi; linarith [hr.2]
  have h3 : a = wrapPi a + 2 * Real.pi * (⌊a / (2 * Real.pi) + 1 / 2⌋ : ℝ) := by
    unfold wrapPi; ring
  refine ⟨⟨h1, h2, ⌊a / (2 * Real.pi) + 1 / 2⌋, h3⟩, ?_⟩
  rintro b hb1 hb2 ⟨n, hn⟩
  refine eq_of_turns (T := 2 * Real.pi) (lo := -Real.pi) (by linarith)
    (⌊a / (2 * Real.pi) + 1 / 2⌋ - n) hb1 (by linarith) h1 (by linarith) ?_
  push_cast
  linarith

/-- C01: wrapping is idempotent, and adding whole turns before wrapping changes nothing. -/
theorem C01_wrap180_turns (a : K) (n : ℤ) :
    wrap180 (wrap180 a) = wrap180 a ∧ wrap180 (a + 360 * n) = wrap180 a := by
  obtain ⟨⟨h1, h2, k, hk⟩, _⟩ := C01_wrap180_canonical a
  constructor
  · exact ((C01_wrap180_canonical (wrap180 a)).2 _ h1 h2 ⟨0, by simp⟩).symm
  · refine ((C01_wrap180_canonical (a + 360 * n)).2 _ h1 h2 ⟨k + n, ?_⟩).symm
    push_cast; linarith

/-- C01: the global planner's `angleToRange` agrees with `wrapAngleToPlusMinusPI`. -/
theorem C01_angleToRange_eq_wrapPi (a : ℝ) : angleToRange a = wrapPi a := by
  have hpi := Real.pi_pos
  have e : (a + Real.pi) / (2 * Real.pi) = a / (2 * Real.pi) + 1 / 2 := by field_simp
  unfold angleToRange wrapPi
  simp only [e]
  ring

-- non-vacuity / sanity: wrapping two and a half turns gives the half-open boundary value
example : wrap180 (900 : ℚ) = -180 := by unfold wrap180; norm_num
example : wrap180 (-725 : ℚ) = -5 := by
  unfold wrap180; rw [show (⌊(-725:ℚ) / 360 + 1 / 2⌋ : ℤ) = -2 by norm_num [Int.floor_eq_iff]]
  norm_num

/-- C02: `angleDifference a b` is a rotation from `b` to `a`, it is in [-180,180), and no other
rotation from `b` to `a` is shorter. -/
theorem C02_angleDifference_shortest (a b : K) :
    (-180 ≤ angleDifference a b ∧ angleDifference a b < 180 ∧
      SameDirection 360 (a - b) (angleDifference a b)) ∧
    ∀ d : K, SameDirection 360 (a - b) d → |angleDifference a b| ≤ |d| := by
  have hr := angleDifference_range a b
  obtain ⟨n, hn⟩ := angleDifference_congr a b
  refine ⟨⟨hr.1, hr.2, n, hn⟩, ?_⟩
  rintro d ⟨m, hm⟩
  have hd : d = angleDifference a b + 360 * ((n - m : ℤ) : K) := by push_cast; linarith
  have habs : |angleDifference a b| ≤ 180 := abs_le.mpr ⟨hr.1, hr.2.le⟩
  rcases eq_or_ne (n - m) 0 with h0 | h0
  · simp [hd, h0]
  · refine habs.trans ?_
    rw [hd]
    rcases lt_or_gt_of_ne h0 with hneg | hpos
    · have : ((n - m : ℤ) : K) ≤ -1 := by exact_mod_cast (by omega : n - m ≤ -1)
      rw [le_abs]; right; linarith
    · have : (1 : K) ≤ ((n - m : ℤ) : K) := by exact_mod_cast (by omega : 1 ≤ n - m)
      rw [le_abs]; left; linarith

/-- C02: `angleDifference` is the canonical wrap of the difference. -/
theorem C02_angleDifference_eq_wrap (a b : K) : angleDifference a b = wrap180 (a - b) :=
  (C01_wrap180_canonical (a - b)).2 _ (angleDifference_range a b).1 (angleDifference_range a b).2
    (angleDifference_congr a b)

/-- C02: the header's claim "[0, 180]" is false: the result is negative for a ≺ b. -/
theorem C02_header_range_false : angleDifference (0 : ℚ) 10 = -10 := by
  rw [C02_angleDifference_eq_wrap]; unfold wrap180; norm_num [Int.floor_eq_iff]

/-- C02: for angles less than 540° apart (all histogram angles are), `indexAngleDifference` is
the length of the shortest rotation. -/
theorem C02_indexAngleDifference (a b : K) (h : |a - b| ≤ 540) :
    indexAngleDifference a b = |angleDifference a b| := by
  obtain ⟨⟨hr1, hr2, n, hn⟩, hmin⟩ := C02_angleDifference_shortest a b
  obtain ⟨h1, h2⟩ := abs_le.mp h
  apply le_antisymm
  · -- the wrapped value is one of the three candidates, or ties with one at ±540
    have hn1 : n ≤ 2 := by
      by_contra hc
      have : (3 : K) ≤ n := by exact_mod_cast (by omega : 3 ≤ n)
      linarith
    have hn2 : -1 ≤ n := by
      by_contra hc
      have : (n : K) ≤ -2 := by exact_mod_cast (by omega : n ≤ -2)
      linarith
    unfold indexAngleDifference
    have hcase : n = -1 ∨ n = 0 ∨ n = 1 ∨ n = 2 := by omega
    rcases hcase with rfl | rfl | rfl | rfl
    · rw [show a - b + 360 = angleDifference a b by push_cast at hn; linarith]
      exact min_le_right _ _
    · rw [show a - b = angleDifference a b by push_cast at hn; linarith]
      exact (min_le_left _ _).trans (min_le_left _ _)
    · rw [show a - b - 360 = angleDifference a b by push_cast at hn; linarith]
      exact (min_le_left _ _).trans (min_le_right _ _)
    · push_cast at hn
      have e1 : a - b = 540 := by linarith
      have e2 : angleDifference a b = -180 := by linarith
      rw [e1, e2]
      refine (min_le_left _ _).trans ((min_le_right _ _).trans ?_)
      rw [abs_neg]
      norm_num
  · unfold indexAngleDifference
    refine le_min (le_min (hmin _ ⟨0, by simp⟩) (hmin _ ⟨1, by push_cast; ring⟩)) (hmin _ ⟨-1, by push_cast; ring⟩)

example : |(179 : ℚ) - (-177)| ≤ 540 ∧ indexAngleDifference (179 : ℚ) (-177) = 4 := by
  constructor
  · rw [abs_le]; constructor <;> norm_num
  · unfold indexAngleDifference; norm_num [abs_of_pos, abs_of_neg]

/-- C08: twice the commanded yaw rate is a rotation from the current to the desired yaw; for a
current yaw in [-π,π) it is at most half a turn and no rotation from current to desired yaw is
shorter. -/
theorem C08_yaw_rate_short_way (desired curr : ℝ) :
    SameDirection (2 * Real.pi) desired (curr + 2 * getAngularVelocity desired curr) ∧
    (-Real.pi ≤ curr → curr < Real.pi →
      |getAngularVelocity desired curr| ≤ Real.pi / 2 ∧
      ∀ d : ℝ, SameDirection (2 * Real.pi) desired (curr + d) →
        2 * |getAngularVelocity desired curr| ≤ |d|) := by
  have hpi := Real.pi_pos
  obtain ⟨⟨h1, h2, n, hn⟩, _⟩ := C01_wrapPi_canonical desired
  -- the angular velocity is half of a value congruent to the difference
  have hcong : SameDirection (2 * Real.pi) desired (curr + 2 * getAngularVelocity desired curr) := by
    unfold getAngularVelocity
    simp only []
    split_ifs
    · exact ⟨n, by linarith⟩
    · exact ⟨n + 1, by push_cast; linarith⟩
    · exact ⟨n, by linarith⟩
    · exact ⟨n - 1, by push_cast; linarith⟩
  refine ⟨hcong, fun hc1 hc2 => ?_⟩
  have habs : |getAngularVelocity desired curr| ≤ Real.pi / 2 := by
    unfold getAngularVelocity
    simp only []
    set w := wrapPi desired
    rw [abs_le]
    split_ifs with c1 c2 c2
    · rw [abs_of_pos c1, abs_of_nonpos (by linarith)] at c2
      constructor <;> linarith
    · rw [abs_of_pos c1, abs_of_nonpos (by linarith)] at c2
      constructor <;> linarith
    · rw [abs_of_nonpos (by linarith), abs_of_nonneg (by linarith)] at c2
      constructor <;> linarith
    · rw [abs_of_nonpos (by linarith), abs_of_nonneg (by linarith)] at c2
      constructor <;> linarith
  refine ⟨habs, ?_⟩
  rintro d ⟨m, hm⟩
  obtain ⟨k, hk⟩ := hcong
  have hd : d = 2 * getAngularVelocity desired curr + 2 * Real.pi * ((k - m : ℤ) : ℝ) := by
    push_cast; linarith
  rcases eq_or_ne (k - m) 0 with h0 | h0
  · rw [hd, h0]; simp [abs_mul]
  · obtain ⟨q1, q2⟩ := abs_le.mp habs
    have : 2 * |getAngularVelocity desired curr| ≤ Real.pi := by linarith
    refine this.trans ?_
    rw [hd]
    rcases lt_or_gt_of_ne h0 with hneg | hpos
    · have : ((k - m : ℤ) : ℝ) ≤ -1 := by exact_mod_cast (by omega : k - m ≤ -1)
      rw [le_abs]; right; nlinarith
    · have : (1 : ℝ) ≤ ((k - m : ℤ) : ℝ) := by exact_mod_cast (by omega : 1 ≤ k - m)
      rw [le_abs]; left; nlinarith

/-- C08 (half a turn): when the wrapped desired yaw is exactly half a turn from the current yaw, both ways round are equally short
and the commanded rotation is the one that does not cross the cut at ±π. -/
theorem C08_yaw_rate_half_turn (desired curr : ℝ) (h : |wrapPi desired - curr| = Real.pi) :
    2 * getAngularVelocity desired curr = wrapPi desired - curr := by
  have hpi := Real.pi_pos
  unfold getAngularVelocity
  simp only []
  have hc : |wrapPi desired - curr| ≤
      |if wrapPi desired - curr > 0 then -(2 * Real.pi - (wrapPi desired - curr)) else 2 * Real.pi + (wrapPi desired - curr)| := by
    rw [h]
    split_ifs with c
    · rw [abs_of_pos c] at h
      rw [h, abs_neg, abs_of_nonneg (by linarith)]
      linarith
    · rw [abs_of_nonpos (not_lt.mp c)] at h
      rw [abs_of_nonneg (by linarith)]
      linarith
  rw [if_pos hc]
  ring

-- half a turn is a case: from -π/2 to π/2
example : |wrapPi (Real.pi / 2) - -(Real.pi / 2)| = Real.pi := by
  have hpi := Real.pi_pos
  have : wrapPi (Real.pi / 2) = Real.pi / 2 :=
    ((C01_wrapPi_canonical (Real.pi / 2)).2 _ (by linarith) (by linarith) ⟨0, by simp⟩).symm
  rw [this, abs_of_pos] <;> linarith

-- the hypotheses are met by an everyday pair of yaws
example : -Real.pi ≤ (1 : ℝ) ∧ (1 : ℝ) < Real.pi := by
  have := Real.two_le_pi; constructor <;> linarith

end Avoidance
