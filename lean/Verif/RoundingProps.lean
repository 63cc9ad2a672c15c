import Verif.Rounding
import Verif.PolarProps

/-!
# What rounding does to the angle helpers (C123)
-/

set_option linter.unusedSectionVars false

namespace Avoidance

section generic
variable {K : Type*} [Field K] [LinearOrder K] [IsStrictOrderedRing K] [FloorRing K]

/-- Specification: the two pairs of angles (elevation, azimuth) name the same direction: the same up to whole turns, or over the
pole. -/
def SameSight (e z e' z' : K) : Prop :=
  (SameDirection 360 e e' ∧ SameDirection 360 z z') ∨ (SameDirection 360 e (180 - e') ∧ SameDirection 360 z (z' + 180))

theorem exactArith_accurate : Accurate (exactArith K) := by
  constructor <;> intros <;> simp only [exactArith, sub_self, abs_zero] <;> positivity

example : wrap180R (exactArith ℚ) 190 = wrap180 190 := by decide +kernel

/-- A result of the arithmetic whose exact value is at most `c` is off by at most `d`. -/
theorem close_of {v x c : K} (d : K) (h : |v - x| ≤ |x| / 2 ^ 23 + 1 / 2 ^ 40) (hx : |x| ≤ c)
    (hd : c / 2 ^ 23 + 1 / 2 ^ 40 ≤ d) : -d ≤ v - x ∧ v - x ≤ d := by
  have h1 : |x| / 2 ^ 23 ≤ c / 2 ^ 23 := div_le_div_of_nonneg_right hx (by positivity)
  exact abs_le.mp (h.trans ((add_le_add_left h1 _).trans hd))

theorem wrap180R_spec {A : Arith K} (hA : Accurate A) {a : K} (ha : |a| ≤ 1000) :
    |wrap180R A a| ≤ 180 + 3 / 4000 ∧ ∃ n : ℤ, |wrap180R A a - (a + 360 * n)| ≤ 1 / 4000 := by
  unfold wrap180R
  set q := A.div a 360 with hq
  set s := A.add q (1 / 2) with hs
  set k := ⌊s⌋ with hk
  set m := A.mul 360 (k : K) with hm
  set r := A.sub a m with hr
  obtain ⟨a1, a2⟩ := abs_le.mp ha
  obtain ⟨q1, q2⟩ := close_of (1 / 2500000) (hA.div a 360 (by norm_num))
    (show |a / 360| ≤ 25 / 9 by rw [abs_le]; constructor <;> linarith) (by norm_num)
  rw [← hq] at q1 q2
  obtain ⟨s1, s2⟩ := close_of (1 / 2000000) (hA.add q (1 / 2))
    (show |q + 1 / 2| ≤ 4 by rw [abs_le]; constructor <;> linarith) (by norm_num)
  rw [← hs] at s1 s2
  have f1 := Int.floor_le s
  have f2 := Int.lt_floor_add_one s
  rw [← hk] at f1 f2
  obtain ⟨m1, m2⟩ := close_of (1 / 5000) (hA.mul 360 (k : K))
    (show |360 * (k : K)| ≤ 1500 by rw [abs_le]; constructor <;> linarith) (by norm_num)
  rw [← hm] at m1 m2
  obtain ⟨r1, r2⟩ := close_of (1 / 40000) (hA.sub a m)
    (show |a - m| ≤ 181 by rw [abs_le]; constructor <;> linarith) (by norm_num)
  rw [← hr] at r1 r2
  refine ⟨?_, -k, ?_⟩
  · rw [abs_le]; constructor <;> linarith
  · rw [abs_le]; push_cast; constructor <;> linarith

/-- C123 (wrapping): with every accurate arithmetic, `wrapAngleToPlusMinus180` of an angle of at most 1000° is within ±180.00075°
and within 0.00025° of an angle of the same direction. -/
theorem C123_wrap180 (A : Arith K) (hA : Accurate A) (a : K) (ha : |a| ≤ 1000) :
    |wrap180R A a| ≤ 180 + 3 / 4000 ∧ ∃ b, SameDirection 360 a b ∧ |wrap180R A a - b| ≤ 1 / 4000 := by
  obtain ⟨h1, n, h2⟩ := wrap180R_spec hA ha
  exact ⟨h1, _, ⟨-n, by push_cast; ring⟩, h2⟩

/-- `wrapPolarR` as a three-way case split (helper). -/
theorem wrapPolarR_cases (A : Arith K) (p : PolarPoint K) :
    wrapPolarR A p =
      if wrap180R A p.e > 90 then
        ⟨A.sub 180 (wrap180R A p.e),
          if wrap180R A p.z < 0 then A.add (wrap180R A p.z) 180 else A.sub (wrap180R A p.z) 180, p.r⟩
      else if wrap180R A p.e < -90 then
        ⟨-(A.add 180 (wrap180R A p.e)),
          if wrap180R A p.z < 0 then A.add (wrap180R A p.z) 180 else A.sub (wrap180R A p.z) 180, p.r⟩
      else ⟨wrap180R A p.e, wrap180R A p.z, p.r⟩ := by
  unfold wrapPolarR
  by_cases c1 : wrap180R A p.e > 90
  · simp only [if_pos c1, if_true]
  · by_cases c2 : wrap180R A p.e < -90
    · simp only [if_neg c1, if_pos c2, if_true]
    · simp only [if_neg c1, if_neg c2, Bool.false_eq_true, if_false]

/-- C123 (wrapping a direction): with every accurate arithmetic, `wrapPolar` of a direction with angles of at most 1000° has an
elevation within ±90.001°, an azimuth within ±180.001° and the same radius, and is within 0.0005° in each angle of a pair of
angles naming the same direction. -/
theorem C123_wrapPolar (A : Arith K) (hA : Accurate A) (p : PolarPoint K) (he : |p.e| ≤ 1000) (hz : |p.z| ≤ 1000) :
    |(wrapPolarR A p).e| ≤ 90 + 1 / 1000 ∧ |(wrapPolarR A p).z| ≤ 180 + 1 / 1000 ∧ (wrapPolarR A p).r = p.r ∧
    ∃ e z, SameSight p.e p.z e z ∧ |(wrapPolarR A p).e - e| ≤ 1 / 2000 ∧ |(wrapPolarR A p).z - z| ≤ 1 / 2000 := by
  obtain ⟨e1, n, e2⟩ := wrap180R_spec hA he
  obtain ⟨z1, m, z2⟩ := wrap180R_spec hA hz
  rw [wrapPolarR_cases]
  set e := wrap180R A p.e
  set z := wrap180R A p.z
  rw [abs_le] at e1 e2 z1 z2
  have flipz : ∃ l : ℤ, |(if z < 0 then A.add z 180 else A.sub z 180) - (p.z + 180 + 360 * l)| ≤ 1 / 2000 ∧
      |(if z < 0 then A.add z 180 else A.sub z 180)| ≤ 180 + 1 / 1000 := by
    split_ifs with c
    · obtain ⟨r1, r2⟩ := close_of (1 / 40000) (hA.add z 180)
        (show |z + 180| ≤ 181 by rw [abs_le]; constructor <;> linarith) (by norm_num)
      refine ⟨m, ?_, ?_⟩ <;> rw [abs_le] <;> constructor <;> linarith
    · obtain ⟨r1, r2⟩ := close_of (1 / 40000) (hA.sub z 180)
        (show |z - 180| ≤ 181 by rw [abs_le]; constructor <;> linarith) (by norm_num)
      refine ⟨m - 1, ?_, ?_⟩ <;> rw [abs_le] <;> push_cast <;> constructor <;> linarith
  obtain ⟨l, l1, l2⟩ := flipz
  generalize (if z < 0 then A.add z 180 else A.sub z 180) = zf at l1 l2 ⊢
  by_cases c1 : e > 90
  · rw [if_pos c1]
    obtain ⟨r1, r2⟩ := close_of (1 / 40000) (hA.sub 180 e)
      (show |180 - e| ≤ 181 by rw [abs_le]; constructor <;> linarith) (by norm_num)
    refine ⟨?_, l2, rfl, 180 - (p.e + 360 * n), p.z + 180 + 360 * l,
      Or.inr ⟨⟨-n, by push_cast; ring⟩, ⟨-l - 1, by push_cast; ring⟩⟩, ?_, l1⟩
    · show |A.sub 180 e| ≤ _
      rw [abs_le]; constructor <;> linarith
    · show |A.sub 180 e - _| ≤ _
      rw [abs_le]; constructor <;> linarith
  rw [if_neg c1]
  by_cases c2 : e < -90
  · rw [if_pos c2]
    obtain ⟨r1, r2⟩ := close_of (1 / 40000) (hA.add 180 e)
      (show |180 + e| ≤ 181 by rw [abs_le]; constructor <;> linarith) (by norm_num)
    refine ⟨?_, l2, rfl, 180 - (p.e + 360 * n) - 360, p.z + 180 + 360 * l,
      Or.inr ⟨⟨-n - 1, by push_cast; ring⟩, ⟨-l - 1, by push_cast; ring⟩⟩, ?_, l1⟩
    · show |-(A.add 180 e)| ≤ _
      rw [abs_neg, abs_le]; constructor <;> linarith
    · show |-(A.add 180 e) - _| ≤ _
      rw [abs_le]; constructor <;> linarith
  rw [if_neg c2]
  refine ⟨?_, ?_, rfl, p.e + 360 * n, p.z + 360 * m, Or.inl ⟨⟨-n, by push_cast; ring⟩, ⟨-m, by push_cast; ring⟩⟩, ?_, ?_⟩
  · show |e| ≤ _
    rw [abs_le]; constructor <;> linarith
  · show |z| ≤ _
    rw [abs_le]; constructor <;> linarith
  · show |e - _| ≤ _
    rw [abs_le]; constructor <;> linarith
  · show |z - _| ≤ _
    rw [abs_le]; constructor <;> linarith

/-- `close_of` after multiplication with a positive number of at most 360. -/
theorem close_scaled {v x : K} (r : K) (hr : 0 < r) (hr1 : r ≤ 360) (h : |v - x| ≤ |x| / 2 ^ 23 + 1 / 2 ^ 40) :
    |r * v - r * x| ≤ |r * x| / 2 ^ 23 + 360 / 2 ^ 40 := by
  rw [← mul_sub, abs_mul, abs_mul, abs_of_pos hr]
  have h1 := mul_le_mul_of_nonneg_left h hr.le
  refine h1.trans ?_
  have h2 : r / 2 ^ 40 ≤ 360 / 2 ^ 40 := div_le_div_of_nonneg_right hr1 (by positivity)
  have h3 : r * (|x| / 2 ^ 23 + 1 / 2 ^ 40) = r * |x| / 2 ^ 23 + r / 2 ^ 40 := by ring
  rw [h3]
  linarith

/-- The clamping of one coordinate (helper). -/
theorem clamp_axis (w : K) (c : ℕ) (hw : |w| ≤ c + 1 / 1000) (res n : ℕ) (hres : 0 < res) (hn : res * n = 2 * c) (h1 : 1 ≤ n)
    (y : ℤ) (g1 : (y : K) * res ≤ w + c + 1 / 5000) (g2 : w + c - 1 / 5000 ≤ ((y : K) + 1) * res) :
      0 ≤ (if (if y ≥ (n : ℤ) then (n : ℤ) - 1 else y) < 0 then 0 else (if y ≥ (n : ℤ) then (n : ℤ) - 1 else y)) ∧
      (if (if y ≥ (n : ℤ) then (n : ℤ) - 1 else y) < 0 then 0 else (if y ≥ (n : ℤ) then (n : ℤ) - 1 else y)) < n ∧
      (((if (if y ≥ (n : ℤ) then (n : ℤ) - 1 else y) < 0 then 0 else (if y ≥ (n : ℤ) then (n : ℤ) - 1 else y)) : ℤ) : K) *
        res - c - 1 / 1000 ≤ w ∧
      w ≤ ((((if (if y ≥ (n : ℤ) then (n : ℤ) - 1 else y) < 0 then 0 else (if y ≥ (n : ℤ) then (n : ℤ) - 1 else y)) : ℤ) : K)
        + 1) * res - c + 1 / 1000 := by
  have hresK : (0 : K) < res := by exact_mod_cast hres
  have hnK : (n : K) * res = 2 * c := by rw [mul_comm]; exact_mod_cast hn
  obtain ⟨w1, w2⟩ := abs_le.mp hw
  by_cases k1 : y ≥ n
  · have k2 : (n : K) ≤ y := by exact_mod_cast k1
    have k3 := mul_le_mul_of_nonneg_right k2 hresK.le
    rw [if_pos k1, if_neg (by omega : ¬ (n : ℤ) - 1 < 0)]
    refine ⟨by omega, by omega, ?_, ?_⟩ <;> push_cast
    · rw [sub_mul]; linarith
    · rw [sub_add_cancel]; linarith
  · rw [if_neg k1]
    by_cases k2 : y < 0
    · have k3 : (y : K) + 1 ≤ 0 := by exact_mod_cast (by omega : y + 1 ≤ 0)
      have k4 := mul_le_mul_of_nonneg_right k3 hresK.le
      rw [if_pos k2]
      refine ⟨by omega, by omega, ?_, ?_⟩ <;> push_cast
      · linarith
      · rw [zero_add]; linarith
    · rw [if_neg k2]
      exact ⟨by omega, by omega, by linarith, by linarith⟩

/-- One coordinate of the histogram index: the clamped, rounded cell of a value `w` is a cell of the axis that holds `w` up to
1/2000. -/
theorem index_axis {A : Arith K} (hA : Accurate A) (w : K) (c : ℕ) (hc : c ≤ 180) (hw : |w| ≤ c + 1 / 1000) (res n : ℕ)
    (hres : 0 < res) (hn : res * n = 2 * c) (h1 : 1 ≤ n) :
    ∃ y, castInt ⌊A.add (A.div w (res : K)) (A.div (c : K) (res : K))⌋ = some y ∧
      0 ≤ (if (if y ≥ (n : ℤ) then (n : ℤ) - 1 else y) < 0 then 0 else (if y ≥ (n : ℤ) then (n : ℤ) - 1 else y)) ∧
      (if (if y ≥ (n : ℤ) then (n : ℤ) - 1 else y) < 0 then 0 else (if y ≥ (n : ℤ) then (n : ℤ) - 1 else y)) < n ∧
      (((if (if y ≥ (n : ℤ) then (n : ℤ) - 1 else y) < 0 then 0 else (if y ≥ (n : ℤ) then (n : ℤ) - 1 else y)) : ℤ) : K) *
        res - c - 1 / 1000 ≤ w ∧
      w ≤ ((((if (if y ≥ (n : ℤ) then (n : ℤ) - 1 else y) < 0 then 0 else (if y ≥ (n : ℤ) then (n : ℤ) - 1 else y)) : ℤ) : K)
        + 1) * res - c + 1 / 1000 := by
  set q := A.div w (res : K)
  set q' := A.div (c : K) (res : K)
  set v := A.add q q'
  have hresK : (1 : K) ≤ res := by exact_mod_cast hres
  have hresK0 : (0 : K) < res := by linarith
  have hnK : (res : K) * n = 2 * c := by exact_mod_cast hn
  have hcK : (c : K) ≤ 180 := by exact_mod_cast hc
  have hcK0 : (0 : K) ≤ c := by positivity
  have hr360 : (res : K) ≤ 360 := by
    have : res ≤ 360 := by nlinarith
    exact_mod_cast this
  obtain ⟨w1, w2⟩ := abs_le.mp hw
  have d1 := close_scaled (res : K) hresK0 hr360 (hA.div w (res : K) hresK0.ne')
  have d2 := close_scaled (res : K) hresK0 hr360 (hA.div (c : K) (res : K) hresK0.ne')
  have d3 := close_scaled (res : K) hresK0 hr360 (hA.add q q')
  rw [mul_div_cancel₀ _ hresK0.ne'] at d1 d2
  have scale : ∀ {b : K} (x t : K), |x| ≤ t → b ≤ |x| / 2 ^ 23 + 360 / 2 ^ 40 → b ≤ t / 2 ^ 23 + 360 / 2 ^ 40 := by
    intro b x t h h'
    have := div_le_div_of_nonneg_right h (show (0 : K) ≤ 2 ^ 23 by positivity)
    linarith
  have hw' : |w| ≤ 181 := by linarith
  obtain ⟨a1, a2⟩ := abs_le.mp ((scale w 181 hw' d1).trans (show _ ≤ (1 / 40000 : K) by norm_num))
  obtain ⟨b1, b2⟩ := abs_le.mp ((scale (c : K) 181 (by rw [abs_of_nonneg hcK0]; linarith) d2).trans
    (show _ ≤ (1 / 40000 : K) by norm_num))
  have e0 : |(res : K) * (q + q')| ≤ 362 := by
    rw [mul_add, abs_le]
    constructor <;> linarith
  obtain ⟨c1, c2⟩ := abs_le.mp ((scale _ _ e0 d3).trans (show _ ≤ (1 / 20000 : K) by norm_num))
  rw [mul_add] at c1 c2
  change -(1 / 20000) ≤ (res : K) * v - _ at c1
  change (res : K) * v - _ ≤ 1 / 20000 at c2
  have v1 : (res : K) * v ≤ w + c + 1 / 5000 := by linarith
  have v2 : w + c - 1 / 5000 ≤ (res : K) * v := by linarith
  have f1 := Int.floor_le v
  have f2 := Int.lt_floor_add_one v
  set y := ⌊v⌋
  have g1 : (y : K) * res ≤ w + c + 1 / 5000 := by
    have := mul_le_mul_of_nonneg_right f1 hresK0.le
    linarith
  have g2 : w + c - 1 / 5000 ≤ ((y : K) + 1) * res := by
    have := mul_le_mul_of_nonneg_right f2.le hresK0.le
    linarith
  have l1 : -2 < y := by
    by_contra hcon
    have : (y : K) + 1 ≤ -1 := by exact_mod_cast (by omega : y + 1 ≤ -1)
    have := mul_le_mul_of_nonneg_right this hresK0.le
    linarith
  have l2 : y < 1000 := by
    by_contra hcon
    have : (1000 : K) ≤ y := by exact_mod_cast (not_lt.mp hcon)
    have := mul_le_mul_of_nonneg_right this hresK0.le
    linarith
  exact ⟨y, by unfold castInt; rw [if_pos ⟨by omega, by omega⟩], clamp_axis w c hw res n hres hn h1 y g1 g2⟩

/-- C123 (histogram index): with every accurate arithmetic, `polarToHistogramIndex` of a direction with angles of at most 1000°
converts only representable integers, and returns a cell of the histogram whose angular interval, widened by 0.0015° on every
side, contains a pair of angles naming the direction. -/
theorem C123_index (A : Arith K) (hA : Accurate A) (p : PolarPoint K) (he : |p.e| ≤ 1000) (hz : |p.z| ≤ 1000) (res : ℕ)
    (h : res ∣ 180) :
    ∃ x y : ℤ, polarToHistogramIndexR A p res = some (x, y) ∧
      0 ≤ x ∧ x < (360 / res : ℕ) ∧ 0 ≤ y ∧ y < (180 / res : ℕ) ∧
      ∃ e z, SameSight p.e p.z e z ∧
        ((y : K) * res - 90 - 3 / 2000 ≤ e ∧ e ≤ ((y : K) + 1) * res - 90 + 3 / 2000) ∧
        ((x : K) * res - 180 - 3 / 2000 ≤ z ∧ z ≤ ((x : K) + 1) * res - 180 + 3 / 2000) := by
  obtain ⟨n, hn⟩ := h
  have hres : 0 < res := by rcases Nat.eq_zero_or_pos res with rfl | h <;> omega
  have hn1 : 1 ≤ n := by rcases Nat.eq_zero_or_pos n with rfl | h <;> omega
  have q1 : 180 / res = n := by rw [hn]; exact Nat.mul_div_cancel_left n hres
  have q2 : 360 / res = 2 * n := by
    rw [show 360 = res * (2 * n) by rw [Nat.mul_left_comm, ← hn]]; exact Nat.mul_div_cancel_left _ hres
  obtain ⟨w1, w2, _, e, z, s, s1, s2⟩ := C123_wrapPolar A hA p he hz
  obtain ⟨y, y0, y1, y2, y3, y4⟩ := index_axis hA (wrapPolarR A p).e 90 (by norm_num) (by push_cast; linarith) res n hres
    (by omega) hn1
  obtain ⟨x, x0, x1, x2, x3, x4⟩ := index_axis hA (wrapPolarR A p).z 180 (by norm_num) (by push_cast; linarith) res (2 * n)
    hres (by rw [Nat.mul_left_comm, ← hn]) (by omega)
  rw [abs_le] at s1 s2
  push_cast at y0 x0 y3 y4 x3 x4
  refine ⟨_, _, by unfold polarToHistogramIndexR; simp only [y0, x0, Option.bind_some, q1, q2], x1, by rw [q2]; exact x2, y1,
    by rw [q1]; exact y2, e, z, s, ⟨?_, ?_⟩, ?_, ?_⟩
  · push_cast; linarith
  · push_cast; linarith
  · push_cast; linarith
  · push_cast; linarith

theorem SameSight.refl (e z : K) : SameSight e z e z :=
  Or.inl ⟨⟨0, by rw [Int.cast_zero, mul_zero, add_zero]⟩, ⟨0, by rw [Int.cast_zero, mul_zero, add_zero]⟩⟩

/-- Two whole numbers of full turns apart and less than a turn apart: equal (helper). -/
theorem same_of_close {a b : K} (h : SameDirection 360 a b) (h1 : a - b < 360) (h2 : -360 < a - b) : a = b := by
  obtain ⟨n, hn⟩ := h
  have n1 : (n : K) < 1 := by linarith
  have n2 : (-1 : K) < n := by linarith
  have n3 : n < 1 := by exact_mod_cast n1
  have n4 : -1 < n := by exact_mod_cast n2
  obtain rfl : n = 0 := by omega
  rw [hn]; simp

/-- Two names of one direction, neither near a pole nor near the cut of the azimuth, are the same (helper). -/
theorem sameSight_unique {a b e z e' z' : K} (s : SameSight a b e z) (s' : SameSight a b e' z')
    (h1 : |e| + |e'| < 180) (h2 : |z| + |z'| < 360) : e = e' ∧ z = z' := by
  have b1 := le_abs_self e
  have b2 := neg_abs_le e
  have b3 := le_abs_self e'
  have b4 := neg_abs_le e'
  have b5 := le_abs_self z
  have b6 := neg_abs_le z
  have b7 := le_abs_self z'
  have b8 := neg_abs_le z'
  rcases s with ⟨⟨n, hn⟩, ⟨m, hm⟩⟩ | ⟨⟨n, hn⟩, ⟨m, hm⟩⟩ <;> rcases s' with ⟨⟨n', hn'⟩, ⟨m', hm'⟩⟩ | ⟨⟨n', hn'⟩, ⟨m', hm'⟩⟩
  · exact ⟨same_of_close ⟨n' - n, by push_cast; linarith⟩ (by linarith) (by linarith),
      same_of_close ⟨m' - m, by push_cast; linarith⟩ (by linarith) (by linarith)⟩
  · exfalso
    have c1 : e + e' = 180 + 360 * ((n' - n : ℤ) : K) := by push_cast; linarith
    rcases le_or_gt 0 (n' - n) with c | c
    · have : (0 : K) ≤ ((n' - n : ℤ) : K) := by exact_mod_cast c
      linarith
    · have : ((n' - n : ℤ) : K) ≤ -1 := by exact_mod_cast (by omega : n' - n ≤ -1)
      linarith
  · exfalso
    have c1 : e + e' = 180 + 360 * ((n - n' : ℤ) : K) := by push_cast; linarith
    rcases le_or_gt 0 (n - n') with c | c
    · have : (0 : K) ≤ ((n - n' : ℤ) : K) := by exact_mod_cast c
      linarith
    · have : ((n - n' : ℤ) : K) ≤ -1 := by exact_mod_cast (by omega : n - n' ≤ -1)
      linarith
  · exact ⟨same_of_close ⟨n - n', by push_cast; linarith⟩ (by linarith) (by linarith),
      same_of_close ⟨m' - m, by push_cast; linarith⟩ (by linarith) (by linarith)⟩

/-- One value deep inside one cell and barely outside another: the cells are the same (helper). -/
theorem same_cell {x x' : ℤ} {r c w : K} (hr : 0 < r) (h1 : (x : K) * r - c + 1 / 100 ≤ w) (h2 : w ≤ ((x : K) + 1) * r - c - 1 / 100)
    (h3 : (x' : K) * r - c - 3 / 2000 ≤ w) (h4 : w ≤ ((x' : K) + 1) * r - c + 3 / 2000) : x = x' := by
  rcases lt_trichotomy x x' with h | h | h
  · exfalso
    have : (x : K) + 1 ≤ x' := by exact_mod_cast h
    have := mul_le_mul_of_nonneg_right this hr.le
    linarith
  · exact h
  · exfalso
    have : (x' : K) + 1 ≤ x := by exact_mod_cast h
    have := mul_le_mul_of_nonneg_right this hr.le
    linarith

/-- C123 (inside a cell): a direction that has a name more than 0.01° inside the angular interval of a cell of the
histogram is mapped to that very cell, with every accurate arithmetic. -/
theorem C123_index_inside (A : Arith K) (hA : Accurate A) (p : PolarPoint K) (he : |p.e| ≤ 1000) (hz : |p.z| ≤ 1000) (res : ℕ)
    (h : res ∣ 180) (x y : ℤ) (hx0 : 0 ≤ x) (hx1 : x < (360 / res : ℕ)) (hy0 : 0 ≤ y) (hy1 : y < (180 / res : ℕ)) (e z : K)
    (hs : SameSight p.e p.z e z)
    (e1 : (y : K) * res - 90 + 1 / 100 ≤ e) (e2 : e ≤ ((y : K) + 1) * res - 90 - 1 / 100)
    (z1 : (x : K) * res - 180 + 1 / 100 ≤ z) (z2 : z ≤ ((x : K) + 1) * res - 180 - 1 / 100) :
    polarToHistogramIndexR A p res = some (x, y) := by
  obtain ⟨x', y', r, x3, x4, y3, y4, e', z', s', ⟨e3, e4⟩, z3, z4⟩ := C123_index A hA p he hz res h
  obtain ⟨n, hn⟩ := h
  have hres : 0 < res := by rcases Nat.eq_zero_or_pos res with rfl | h <;> omega
  have hresK : (0 : K) < res := by exact_mod_cast hres
  have q1 : 180 / res = n := by rw [hn]; exact Nat.mul_div_cancel_left n hres
  have q2 : 360 / res = 2 * n := by
    rw [show 360 = res * (2 * n) by rw [Nat.mul_left_comm, ← hn]]; exact Nat.mul_div_cancel_left _ hres
  rw [q1] at hy1 y4
  rw [q2] at hx1 x4
  have hnK : (n : K) * res = 180 := by rw [mul_comm]; exact_mod_cast hn.symm
  have bound : ∀ (i : ℤ) (m : ℕ), 0 ≤ i → i < m → (0 : K) ≤ (i : K) * res ∧ ((i : K) + 1) * res ≤ (m : K) * res := by
    intro i m h0 h1
    have a0 : (0 : K) ≤ i := by exact_mod_cast h0
    have a1 : (i : K) + 1 ≤ m := by exact_mod_cast h1
    exact ⟨mul_nonneg a0 hresK.le, mul_le_mul_of_nonneg_right a1 hresK.le⟩
  obtain ⟨a1, a2⟩ := bound y n hy0 hy1
  obtain ⟨a3, a4⟩ := bound y' n y3 y4
  obtain ⟨a5, a6⟩ := bound x (2 * n) hx0 hx1
  obtain ⟨a7, a8⟩ := bound x' (2 * n) x3 x4
  push_cast at a6 a8
  have be : |e| ≤ 90 - 1 / 100 := by rw [abs_le]; constructor <;> linarith
  have be' : |e'| ≤ 90 + 3 / 2000 := by rw [abs_le]; constructor <;> linarith
  have bz : |z| ≤ 180 - 1 / 100 := by rw [abs_le]; constructor <;> linarith
  have bz' : |z'| ≤ 180 + 3 / 2000 := by rw [abs_le]; constructor <;> linarith
  obtain ⟨rfl, rfl⟩ := sameSight_unique hs s' (by linarith) (by linarith)
  rw [r, same_cell hresK e1 e2 e3 e4, same_cell hresK z1 z2 z3 z4]

/-- C123 (round trip): at every resolution but 1°, the angles of a histogram cell map back to that cell, with every accurate
arithmetic. -/
theorem C123_index_round_trip (A : Arith K) (hA : Accurate A) (res : ℕ) (h : res ∣ 180) (h1 : res ≠ 1) (e z : ℤ) (r : K)
    (he0 : 0 ≤ e) (he1 : e < (180 / res : ℕ)) (hz0 : 0 ≤ z) (hz1 : z < (360 / res : ℕ)) :
    polarToHistogramIndexR A (histogramIndexToPolar e z res r) res = some (z, e) := by
  have h' := h
  obtain ⟨n, hn⟩ := h'
  have hres : 0 < res := by rcases Nat.eq_zero_or_pos res with rfl | h <;> omega
  have q1 : 180 / res = n := by rw [hn]; exact Nat.mul_div_cancel_left n hres
  have q2 : 360 / res = 2 * n := by
    rw [show 360 = res * (2 * n) by rw [Nat.mul_left_comm, ← hn]]; exact Nat.mul_div_cancel_left _ hres
  have hnZ : (res : ℤ) * n = 180 := by exact_mod_cast hn.symm
  have i1 : (1 : ℤ) ≤ (res : ℤ) / 2 := by omega
  have i2 : (res : ℤ) / 2 + 1 ≤ res := by omega
  have bound : ∀ (i : ℤ) (m : ℕ), 0 ≤ i → i < m → 0 ≤ i * res ∧ i * res + res ≤ (m : ℤ) * res := by
    intro i m h0 h1
    exact ⟨by positivity, by nlinarith⟩
  have he1' := he1
  have hz1' := hz1
  rw [q1] at he1'
  rw [q2] at hz1'
  obtain ⟨b1, b2⟩ := bound e n he0 he1'
  obtain ⟨b3, b4⟩ := bound z (2 * n) hz0 hz1'
  rw [mul_comm (n : ℤ), hnZ] at b2
  rw [show (((2 * n : ℕ) : ℤ) * (res : ℤ)) = 360 by push_cast; linarith] at b4
  have inside : ∀ (i : ℤ) (c : ℤ), ((i : K) * res - c + 1 / 100 ≤ ((i * res + res / 2 - c : ℤ) : K)) ∧
      ((i * res + res / 2 - c : ℤ) : K) ≤ ((i : K) + 1) * res - c - 1 / 100 := by
    intro i c
    have j1 : ((i * res - c + 1 : ℤ) : K) ≤ ((i * res + res / 2 - c : ℤ) : K) := by exact_mod_cast (by omega)
    have j2 : ((i * res + res / 2 - c : ℤ) : K) ≤ ((i * res + res - c - 1 : ℤ) : K) := by exact_mod_cast (by omega)
    push_cast at j1 j2 ⊢
    constructor <;> linarith
  have i3 := inside e 90
  have i4 := inside z 180
  push_cast at i3 i4
  refine C123_index_inside A hA _ ?_ ?_ res h z e hz0 hz1 he0 he1 _ _ (SameSight.refl _ _) ?_ ?_ ?_ ?_
  · show |((e * res + res / 2 - 90 : ℤ) : K)| ≤ 1000
    rw [abs_le]
    exact ⟨by exact_mod_cast (by omega : (-1000 : ℤ) ≤ e * res + res / 2 - 90),
      by exact_mod_cast (by omega : e * res + res / 2 - 90 ≤ (1000 : ℤ))⟩
  · show |((z * res + res / 2 - 180 : ℤ) : K)| ≤ 1000
    rw [abs_le]
    exact ⟨by exact_mod_cast (by omega : (-1000 : ℤ) ≤ z * res + res / 2 - 180),
      by exact_mod_cast (by omega : z * res + res / 2 - 180 ≤ (1000 : ℤ))⟩
  · show _ ≤ ((e * res + res / 2 - 90 : ℤ) : K)
    push_cast; exact i3.1
  · show ((e * res + res / 2 - 90 : ℤ) : K) ≤ _
    push_cast; exact i3.2
  · show _ ≤ ((z * res + res / 2 - 180 : ℤ) : K)
    push_cast; exact i4.1
  · show ((z * res + res / 2 - 180 : ℤ) : K) ≤ _
    push_cast; exact i4.2

theorem castInt_some {v w : ℤ} (h : castInt v = some w) : w = v := by
  unfold castInt at h
  split_ifs at h
  exact (Option.some.inj h).symm

/-- C123 (agreement): with exact arithmetic the rounded helper is the one of the rest of the model, where its conversions are
defined. -/
theorem C123_exact_agrees (p : PolarPoint K) (res : ℕ) (i : ℤ × ℤ) (h : polarToHistogramIndexR (exactArith K) p res = some i) :
    i = polarToHistogramIndex p res := by
  obtain ⟨y, hy, h⟩ := Option.bind_eq_some_iff.mp h
  obtain ⟨x, hx, h⟩ := Option.bind_eq_some_iff.mp h
  obtain rfl := castInt_some hy
  obtain rfl := castInt_some hx
  exact (Option.some.inj h).symm

/-- C123 (difference of two angles): with every accurate arithmetic, `angleDifference` of two angles of at most 1000° is within
±180.0003° and within 0.0003° of an angle with the same direction as their difference. -/
theorem C123_angleDifference (A : Arith K) (hA : Accurate A) (a b : K) (ha : |a| ≤ 1000) (hb : |b| ≤ 1000) :
    |angleDifferenceR A a b| ≤ 180 + 3 / 10000 ∧
    ∃ d, SameDirection 360 (a - b) d ∧ |angleDifferenceR A a b - d| ≤ 3 / 10000 := by
  obtain ⟨a1, a2⟩ := abs_le.mp ha
  obtain ⟨b1, b2⟩ := abs_le.mp hb
  obtain ⟨s1, s2⟩ := close_of (1 / 4000) (hA.sub a b)
    (show |a - b| ≤ 2000 by rw [abs_le]; constructor <;> linarith) (by norm_num)
  unfold angleDifferenceR
  simp only []
  set s := A.sub a b
  have hf : ∃ n : ℤ, fmod s 360 = s - 360 * n ∧ (0 ≤ fmod s 360 → fmod s 360 < 360) ∧ (fmod s 360 < 0 → -360 < fmod s 360) := by
    unfold fmod
    split_ifs with c
    · refine ⟨_, rfl, fun _ => ?_, fun hh => ?_⟩
      · have := Int.lt_floor_add_one (s / 360)
        linarith
      · have := Int.floor_le (s / 360)
        linarith
    · refine ⟨_, rfl, fun hh => ?_, fun _ => ?_⟩
      · have := Int.le_ceil (s / 360)
        linarith
      · have := Int.ceil_lt_add_one (s / 360)
        linarith
  obtain ⟨n, hn, f1, f2⟩ := hf
  generalize fmod s 360 = f at hn f1 f2 ⊢
  split_ifs with c1 c2 c2
  · refine ⟨by rw [abs_le]; constructor <;> linarith, a - b - 360 * n, ⟨n, by ring⟩, ?_⟩
    rw [abs_le]; constructor <;> linarith
  · have := f1 c1
    obtain ⟨r1, r2⟩ := close_of (1 / 40000) (hA.sub f 360)
      (show |f - 360| ≤ 180 by rw [abs_le]; constructor <;> linarith) (by norm_num)
    refine ⟨by rw [abs_le]; constructor <;> linarith, a - b - 360 * ((n + 1 : ℤ) : K), ⟨n + 1, by ring⟩, ?_⟩
    rw [abs_le]; push_cast; constructor <;> linarith
  · refine ⟨by rw [abs_le]; constructor <;> linarith, a - b - 360 * n, ⟨n, by ring⟩, ?_⟩
    rw [abs_le]; constructor <;> linarith
  · have := f2 (by linarith)
    obtain ⟨r1, r2⟩ := close_of (1 / 40000) (hA.add f 360)
      (show |f + 360| ≤ 181 by rw [abs_le]; constructor <;> linarith) (by norm_num)
    refine ⟨by rw [abs_le]; constructor <;> linarith, a - b - 360 * ((n - 1 : ℤ) : K), ⟨n - 1, by ring⟩, ?_⟩
    rw [abs_le]; push_cast; constructor <;> linarith

end generic

theorem roundEven_close (x : ℚ) : |(roundEven x : ℚ) - x| ≤ 1 / 2 := by
  have f1 := Int.floor_le x
  have f2 := Int.lt_floor_add_one x
  unfold roundEven
  split_ifs <;> rw [abs_le] <;> push_cast <;> constructor <;> linarith

theorem toFloat_close (x : ℚ) : |toFloat x - x| ≤ |x| / 2 ^ 24 := by
  unfold toFloat
  rcases eq_or_ne x 0 with rfl | hx
  · simp [roundEven]
  have hpos : 0 < |x| := abs_pos.mpr hx
  set l := Int.log 2 |x|
  have h1 : (2 : ℚ) ^ l ≤ |x| := by exact_mod_cast Int.zpow_log_le_self (b := 2) one_lt_two hpos
  have hu : (0 : ℚ) < 2 ^ (l - 23) := by positivity
  have h2 := mul_le_mul_of_nonneg_right (roundEven_close (x / 2 ^ (l - 23))) hu.le
  rw [← abs_of_pos hu, ← abs_mul, sub_mul, abs_of_pos hu, div_mul_cancel₀ _ hu.ne'] at h2
  refine h2.trans ?_
  have h3 : (2 : ℚ) ^ (l - 23) = 2 ^ l / 2 ^ 23 := by
    rw [zpow_sub₀ (by norm_num)]; norm_num
  rw [h3]
  have : 1 / 2 * ((2 : ℚ) ^ l / 2 ^ 23) = 2 ^ l / 2 ^ 24 := by ring
  rw [this]
  exact div_le_div_of_nonneg_right h1 (by positivity)

/-- C123 (the machine): the arithmetic of single precision, round to nearest, is accurate in the sense of the theorems of this file. -/
theorem C123_binary32_accurate : Accurate binary32 := by
  have key : ∀ x : ℚ, |toFloat x - x| ≤ |x| / 2 ^ 23 + 1 / 2 ^ 40 := by
    intro x
    refine (toFloat_close x).trans ?_
    have : |x| / 2 ^ 24 ≤ |x| / 2 ^ 23 := by
      apply div_le_div_of_nonneg_left (abs_nonneg _) <;> norm_num
    have h0 : (0 : ℚ) ≤ 1 / 2 ^ 40 := by positivity
    linarith
  exact ⟨fun x y => key _, fun x y => key _, fun x y => key _, fun x y _ => key _⟩

/-- C123 (the range is left): in single precision, `wrapAngleToPlusMinus180` of 179.99998° (the largest `float` below 180) is
-180.00002°, which is outside [-180,180), and names the neighbouring direction. -/
theorem C123_leaves_range_witness :
    toFloat (11796479 / 65536) = 11796479 / 65536 ∧ (11796479 / 65536 : ℚ) < 180 ∧
    wrap180R binary32 (11796479 / 65536) = -11796481 / 65536 ∧ (-11796481 / 65536 : ℚ) < -180 := by
  decide +kernel

/-- C123 (the cell across the cut): in single precision that direction, level, is mapped to the first cell of azimuth, and not to
the last one, which contains it: the clamping of `polarToHistogramIndex` is needed and moves it across the cut. -/
theorem C123_across_the_cut_witness :
    polarToHistogramIndexR binary32 ⟨0, 11796479 / 65536, 1⟩ 6 = some (0, 15) ∧
    polarToHistogramIndex (⟨0, 11796479 / 65536, 1⟩ : PolarPoint ℚ) 6 = (59, 15) := by
  decide +kernel

/-- C123 (beyond 1000°): in single precision an azimuth of 7 · 2⁵⁸ degrees is wrapped to some -10¹¹ degrees, whose conversion to
`int` is undefined. -/
theorem C123_huge_angle_witness :
    toFloat (7 * 2 ^ 58) = 7 * 2 ^ 58 ∧ wrap180R binary32 (7 * 2 ^ 58) = -137438953472 ∧
    polarToHistogramIndexR binary32 ⟨0, 7 * 2 ^ 58, 1⟩ 6 = none := by
  decide +kernel

/-- Non-vacuity: in single precision the angles of a cell at 6° go back to that cell, and the hypotheses of the theorems
are met by an everyday direction. -/
example : polarToHistogramIndexR binary32 (histogramIndexToPolar 15 30 6 1) 6 = some (30, 15) ∧
    polarToHistogramIndexR binary32 ⟨101 / 10, 2003 / 10, 5⟩ 6 = some (3, 16) ∧ |(2003 / 10 : ℚ)| ≤ 1000 := by decide +kernel

/-- `M_PI_F` as a `float`: avoidance/include/avoidance/common.h:104. -/
noncomputable def mPiF : ℝ := 13176795 / 4194304

/-- The literal of the source, 3.14159265358979323846, is rounded to that `float`. -/
theorem C123_mPiF : toFloat (314159265358979323846 / 100000000000000000000) = 13176795 / 4194304 := by decide +kernel

theorem mPiF_close : |mPiF - Real.pi| ≤ 1 / 10000000 := by
  have h1 := Real.pi_gt_d20
  have h2 := Real.pi_lt_d20
  unfold mPiF
  rw [abs_le]
  constructor <;> linarith

theorem wrapPiR_spec {A : Arith ℝ} (hA : Accurate A) {a : ℝ} (ha : |a| ≤ 100) :
    |wrapPiR A mPiF a| ≤ Real.pi + 1 / 10000 ∧ ∃ n : ℤ, |wrapPiR A mPiF a - (a + 2 * Real.pi * n)| ≤ 1 / 10000 := by
  unfold wrapPiR
  have hp1 := Real.pi_gt_d2
  have hp2 := Real.pi_lt_d2
  obtain ⟨p1, p2⟩ := abs_le.mp mPiF_close
  obtain ⟨t1, t2⟩ := close_of (1 / 1000000) (hA.mul 2 mPiF)
    (show |2 * mPiF| ≤ 7 by rw [abs_le]; constructor <;> linarith) (by norm_num)
  set t := A.mul 2 mPiF
  obtain ⟨a1, a2⟩ := abs_le.mp ha
  have ht0 : (0 : ℝ) < t := by linarith
  have hq0 : |a / t| ≤ 17 := by
    rw [abs_div, abs_of_pos ht0, div_le_iff₀ ht0]
    linarith
  obtain ⟨b1, b2⟩ := abs_le.mp hq0
  obtain ⟨q1, q2⟩ := close_of (1 / 400000) (hA.div a t ht0.ne') hq0 (by norm_num)
  set q := A.div a t
  obtain ⟨s1, s2⟩ := close_of (1 / 400000) (hA.add q (1 / 2))
    (show |q + 1 / 2| ≤ 18 by rw [abs_le]; constructor <;> linarith) (by norm_num)
  set s := A.add q (1 / 2)
  have f1 := Int.floor_le s
  have f2 := Int.lt_floor_add_one s
  set k := ⌊s⌋
  have k1 : |(k : ℝ)| ≤ 19 := by rw [abs_le]; constructor <;> linarith
  have tk : |t * (k : ℝ)| ≤ 120 := by
    rw [abs_mul, abs_of_pos ht0]
    nlinarith [abs_nonneg (k : ℝ)]
  obtain ⟨m1, m2⟩ := close_of (1 / 60000) (hA.mul t (k : ℝ)) tk (by norm_num)
  set m := A.mul t (k : ℝ)
  have d0 : |a / t - k| ≤ 1 / 2 + 1 / 200000 := by rw [abs_le]; constructor <;> linarith
  have d1 : a - t * k = t * (a / t - k) := by field_simp
  have d2 : |a - t * k| ≤ Real.pi + 4 / 100000 := by
    rw [d1, abs_mul, abs_of_pos ht0]
    have := mul_le_mul_of_nonneg_left d0 ht0.le
    linarith
  have d3 : |(t - 2 * Real.pi) * k| ≤ 1 / 40000 := by
    rw [abs_mul]
    have : |t - 2 * Real.pi| ≤ 13 / 10000000 := by rw [abs_le]; constructor <;> linarith
    have := mul_le_mul this k1 (abs_nonneg _) (by norm_num)
    linarith
  obtain ⟨d4, d5⟩ := abs_le.mp d2
  obtain ⟨d6, d7⟩ := abs_le.mp d3
  obtain ⟨r1, r2⟩ := close_of (1 / 1000000) (hA.sub a m)
    (show |a - m| ≤ 4 by rw [abs_le]; constructor <;> linarith) (by norm_num)
  refine ⟨by rw [abs_le]; constructor <;> linarith, -k, ?_⟩
  rw [abs_le]
  push_cast
  constructor <;> linarith

/-- C123 (yaw rate): with every accurate arithmetic, and π rounded to single precision, twice the commanded yaw rate is within 0.0003
of a rotation from the current to the desired yaw, is at most half a turn, and no such rotation is shorter, up to 0.001. -/
theorem C123_yaw_rate (A : Arith ℝ) (hA : Accurate A) (desired curr : ℝ) (hd : |desired| ≤ 100) (hc : |curr| ≤ Real.pi + 1 / 1000) :
    |getAngularVelocityR A mPiF desired curr| ≤ Real.pi / 2 + 1 / 10000 ∧
    (∃ d, SameDirection (2 * Real.pi) desired (curr + d) ∧ |2 * getAngularVelocityR A mPiF desired curr - d| ≤ 3 / 10000) ∧
    ∀ d, SameDirection (2 * Real.pi) desired (curr + d) → 2 * |getAngularVelocityR A mPiF desired curr| ≤ |d| + 1 / 1000 := by
  have hp1 := Real.pi_gt_d2
  have hp2 := Real.pi_lt_d2
  obtain ⟨w1, n, w2⟩ := wrapPiR_spec hA hd
  obtain ⟨p1, p2⟩ := abs_le.mp mPiF_close
  obtain ⟨t1, t2⟩ := close_of (1 / 1000000) (hA.mul 2 mPiF)
    (show |2 * mPiF| ≤ 7 by rw [abs_le]; constructor <;> linarith) (by norm_num)
  rw [abs_le] at w1 w2 hc
  have main : ∃ j : ℤ, |2 * getAngularVelocityR A mPiF desired curr - (desired - curr + 2 * Real.pi * j)| ≤ 3 / 10000 ∧
      |getAngularVelocityR A mPiF desired curr| ≤ Real.pi / 2 + 1 / 10000 := by
    unfold getAngularVelocityR
    simp only []
    set t := A.mul 2 mPiF
    set w := wrapPiR A mPiF desired
    obtain ⟨v1, v2⟩ := close_of (1 / 1000000) (hA.sub w curr)
      (show |w - curr| ≤ 7 by rw [abs_le]; constructor <;> linarith) (by norm_num)
    set v := A.sub w curr
    obtain ⟨x1, x2⟩ := close_of (1 / 500000) (hA.sub t v)
      (show |t - v| ≤ 14 by rw [abs_le]; constructor <;> linarith) (by norm_num)
    obtain ⟨y1, y2⟩ := close_of (1 / 500000) (hA.add t v)
      (show |t + v| ≤ 14 by rw [abs_le]; constructor <;> linarith) (by norm_num)
    by_cases c : v > 0
    · simp only [if_pos c]
      by_cases c2 : |v| ≤ |-(A.sub t v)|
      · rw [if_pos c2]
        rw [abs_neg, abs_of_pos c] at c2
        refine ⟨n, by rw [abs_le]; constructor <;> linarith, ?_⟩
        rcases abs_cases (A.sub t v) with ⟨h1, _⟩ | ⟨h1, _⟩ <;> rw [h1] at c2 <;> rw [abs_le] <;> constructor <;> linarith
      · rw [if_neg c2]
        rw [abs_neg, abs_of_pos c] at c2
        refine ⟨n - 1, by rw [abs_le]; push_cast; constructor <;> linarith, ?_⟩
        rcases abs_cases (A.sub t v) with ⟨h1, _⟩ | ⟨h1, _⟩ <;> rw [h1] at c2 <;> rw [abs_le] <;> constructor <;> linarith
    · simp only [if_neg c]
      by_cases c2 : |v| ≤ |A.add t v|
      · rw [if_pos c2]
        rw [abs_of_nonpos (not_lt.mp c)] at c2
        refine ⟨n, by rw [abs_le]; constructor <;> linarith, ?_⟩
        rcases abs_cases (A.add t v) with ⟨h1, _⟩ | ⟨h1, _⟩ <;> rw [h1] at c2 <;> rw [abs_le] <;> constructor <;> linarith
      · rw [if_neg c2]
        rw [abs_of_nonpos (not_lt.mp c)] at c2
        refine ⟨n + 1, by rw [abs_le]; push_cast; constructor <;> linarith, ?_⟩
        rcases abs_cases (A.add t v) with ⟨h1, _⟩ | ⟨h1, _⟩ <;> rw [h1] at c2 <;> rw [abs_le] <;> constructor <;> linarith
  generalize getAngularVelocityR A mPiF desired curr = g at main ⊢
  obtain ⟨j, j1, j2⟩ := main
  refine ⟨j2, ⟨desired - curr + 2 * Real.pi * j, ⟨-j, by push_cast; ring⟩, j1⟩, ?_⟩
  rintro d ⟨i, hi⟩
  obtain ⟨g1, g2⟩ := abs_le.mp j2
  obtain ⟨g3, g4⟩ := abs_le.mp j1
  have hdd : desired - curr + 2 * Real.pi * j = d + 2 * Real.pi * ((i + j : ℤ) : ℝ) := by push_cast; linarith
  rw [hdd] at g3 g4
  have e1 := le_abs_self d
  have e2 := neg_abs_le d
  rcases lt_trichotomy (i + j) 0 with h | h | h
  · have h' : ((i + j : ℤ) : ℝ) ≤ -1 := by exact_mod_cast (by omega : i + j ≤ -1)
    have := mul_le_mul_of_nonneg_left h' (show (0 : ℝ) ≤ 2 * Real.pi by linarith)
    rcases abs_cases g with ⟨h1, _⟩ | ⟨h1, _⟩ <;> rw [h1] <;> linarith
  · rw [h, Int.cast_zero, mul_zero, add_zero] at g3 g4
    rcases abs_cases g with ⟨h1, _⟩ | ⟨h1, _⟩ <;> rw [h1] <;> linarith
  · have h' : (1 : ℝ) ≤ ((i + j : ℤ) : ℝ) := by exact_mod_cast (by omega : 1 ≤ i + j)
    have := mul_le_mul_of_nonneg_left h' (show (0 : ℝ) ≤ 2 * Real.pi by linarith)
    rcases abs_cases g with ⟨h1, _⟩ | ⟨h1, _⟩ <;> rw [h1] <;> linarith

/-- Non-vacuity: there is an accurate arithmetic on ℝ, and everyday yaws satisfy the bounds. -/
example : (∃ A : Arith ℝ, Accurate A) ∧ |(3 : ℝ)| ≤ 100 ∧ |(-3 : ℝ)| ≤ Real.pi + 1 / 1000 := by
  have := Real.pi_gt_d2
  refine ⟨⟨_, exactArith_accurate⟩, by norm_num, ?_⟩
  rw [abs_neg, abs_of_pos (by norm_num)]
  linarith

end Avoidance
