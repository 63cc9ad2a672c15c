import Verif.Polar
import Verif.AnglesProps
import Mathlib.Analysis.SpecialFunctions.Trigonometric.Angle
import Mathlib.Analysis.Real.Pi.Bounds

/-!
# Properties of the polar / Cartesian / frame conversions (C03 – C07, C62)
-/

set_option linter.unusedSectionVars false

namespace Avoidance

section generic
variable {K : Type*} [Field K] [LinearOrder K] [IsStrictOrderedRing K] [FloorRing K]

/-- `wrapPolar` as a three-way case split (helper). -/
theorem wrapPolar_cases (p : PolarPoint K) :
    wrapPolar p =
      if wrap180 p.e > 90 then
        ⟨180 - wrap180 p.e, if wrap180 p.z < 0 then wrap180 p.z + 180 else wrap180 p.z - 180, p.r⟩
      else if wrap180 p.e < -90 then
        ⟨-(180 + wrap180 p.e), if wrap180 p.z < 0 then wrap180 p.z + 180 else wrap180 p.z - 180, p.r⟩
      else ⟨wrap180 p.e, wrap180 p.z, p.r⟩ := by
  unfold wrapPolar
  by_cases c1 : wrap180 p.e > 90
  · simp only [if_pos c1, if_true]
  · by_cases c2 : wrap180 p.e < -90
    · simp only [if_neg c1, if_pos c2, if_true]
    · simp only [if_neg c1, if_neg c2, Bool.false_eq_true, if_false]

/-- C03 (range): elevation ends in [-90,90], azimuth in [-180,180), radius unchanged. -/
theorem C03_wrapPolar_range (p : PolarPoint K) :
    (-90 ≤ (wrapPolar p).e ∧ (wrapPolar p).e ≤ 90) ∧
    (-180 ≤ (wrapPolar p).z ∧ (wrapPolar p).z < 180) ∧ (wrapPolar p).r = p.r := by
  obtain ⟨⟨a1, a2, _⟩, _⟩ := C01_wrap180_canonical p.e
  obtain ⟨⟨b1, b2, _⟩, _⟩ := C01_wrap180_canonical p.z
  rw [wrapPolar_cases]
  split_ifs with c1 c2 c3 c4 <;> refine ⟨⟨?_, ?_⟩, ⟨?_, ?_⟩, rfl⟩ <;> simp only [] <;> linarith

/-- C03: a point already in range is not changed. -/
theorem C03_wrapPolar_fixed (p : PolarPoint K) (h1 : -90 ≤ p.e) (h2 : p.e ≤ 90)
    (h3 : -180 ≤ p.z) (h4 : p.z < 180) : wrapPolar p = p := by
  have he : wrap180 p.e = p.e :=
    ((C01_wrap180_canonical p.e).2 _ (by linarith) (by linarith) ⟨0, by simp⟩).symm
  have hz : wrap180 p.z = p.z :=
    ((C01_wrap180_canonical p.z).2 _ (by linarith) (by linarith) ⟨0, by simp⟩).symm
  rw [wrapPolar_cases, he, hz, if_neg (by linarith : ¬ p.e > 90),
    if_neg (by linarith : ¬ p.e < -90)]

/-- C03 (idempotent). -/
theorem C03_wrapPolar_idempotent (p : PolarPoint K) :
    wrapPolar (wrapPolar p) = wrapPolar p := by
  obtain ⟨⟨a1, a2⟩, ⟨b1, b2⟩, _⟩ := C03_wrapPolar_range p
  exact C03_wrapPolar_fixed _ a1 a2 b1 b2

/-- C04 (memory safety): for every direction and every resolution up to 180° the index is inside
the histogram. -/
theorem C04_index_in_range (p : PolarPoint K) (res : ℕ) (h0 : 0 < res) (h1 : res ≤ 180) :
    0 ≤ (polarToHistogramIndex p res).1 ∧ (polarToHistogramIndex p res).1 < (360 / res : ℕ) ∧
    0 ≤ (polarToHistogramIndex p res).2 ∧ (polarToHistogramIndex p res).2 < (180 / res : ℕ) := by
  have hx : 0 < 360 / res := Nat.div_pos (by omega) h0
  have hy : 0 < 180 / res := Nat.div_pos (by omega) h0
  unfold polarToHistogramIndex
  simp only []
  generalize ⌊(wrapPolar p).z / (res : K) + 180 / (res : K)⌋ = X
  generalize ⌊(wrapPolar p).e / (res : K) + 90 / (res : K)⌋ = Y
  generalize 360 / res = A at *
  generalize 180 / res = B at *
  refine ⟨?_, ?_, ?_, ?_⟩ <;> split_ifs <;> omega

/-- C04 (right cell): the direction (normalised by `wrapPolar`) lies in the angular interval of
the cell it is mapped to; only the upper pole 90° belongs to the cell below it. -/
theorem C04_index_cell_contains (p : PolarPoint K) (res : ℕ) (h : res ∣ 180) :
    let i := polarToHistogramIndex p res
    let w := wrapPolar p
    ((i.1 : K) * res - 180 ≤ w.z ∧ w.z < ((i.1 : K) + 1) * res - 180) ∧
    ((i.2 : K) * res - 90 ≤ w.e ∧ w.e ≤ ((i.2 : K) + 1) * res - 90 ∧
      (w.e ≠ 90 → w.e < ((i.2 : K) + 1) * res - 90)) := by
  obtain ⟨⟨a1, a2⟩, ⟨b1, b2⟩, _⟩ := C03_wrapPolar_range p
  obtain ⟨n, hn⟩ := h
  have hres : 0 < res := by rcases Nat.eq_zero_or_pos res with rfl | h <;> omega
  have hresK : (0 : K) < res := by exact_mod_cast hres
  have hn0 : 0 < n := by rcases Nat.eq_zero_or_pos n with rfl | h <;> omega
  have e1 : 180 / res = n := by rw [hn]; exact Nat.mul_div_cancel_left n hres
  have e2 : 360 / res = 2 * n := by
    rw [show 360 = res * (2 * n) by rw [Nat.mul_left_comm, ← hn]]; exact Nat.mul_div_cancel_left _ hres
  have hnK : (res : K) * n = 180 := by exact_mod_cast hn.symm
  simp only [polarToHistogramIndex, e1, e2]
  set w := wrapPolar p
  have X1 := Int.floor_le (w.z / (res : K) + 180 / (res : K))
  have X2 := Int.lt_floor_add_one (w.z / (res : K) + 180 / (res : K))
  have Y1 := Int.floor_le (w.e / (res : K) + 90 / (res : K))
  have Y2 := Int.lt_floor_add_one (w.e / (res : K) + 90 / (res : K))
  rw [← add_div, le_div_iff₀ hresK] at X1 Y1
  rw [← add_div, div_lt_iff₀ hresK] at X2 Y2
  rw [← add_div, ← add_div]
  set X := ⌊(w.z + 180) / (res : K)⌋
  set Y := ⌊(w.e + 90) / (res : K)⌋
  have hX0 : 0 ≤ X := by
    by_contra hc
    have : (X : K) + 1 ≤ 0 := by exact_mod_cast (by omega : X + 1 ≤ 0)
    nlinarith
  have hX1 : X < 2 * n := by
    by_contra hc
    have : (2 * n : K) ≤ X := by exact_mod_cast (by omega : (2 * n : ℤ) ≤ X)
    nlinarith
  have hY0 : 0 ≤ Y := by
    by_contra hc
    have : (Y : K) + 1 ≤ 0 := by exact_mod_cast (by omega : Y + 1 ≤ 0)
    nlinarith
  have hY1 : Y ≤ n := by
    by_contra hc
    have : (n : K) + 1 ≤ Y := by exact_mod_cast (by omega : (n + 1 : ℤ) ≤ Y)
    nlinarith
  simp only [Nat.cast_mul, Nat.cast_ofNat]
  rw [if_neg (by omega : ¬ X ≥ 2 * n), if_neg (by omega : ¬ X < 0)]
  refine ⟨⟨by linarith, by linarith⟩, ?_⟩
  by_cases hYn : Y = n
  · rw [if_pos (by omega : Y ≥ n), if_neg (by omega : ¬ ((n : ℤ) - 1 < 0))]
    have hYnK : (Y : K) = n := by exact_mod_cast hYn
    rw [hYnK] at Y1 Y2
    push_cast
    refine ⟨by nlinarith, by nlinarith, fun hne => absurd (le_antisymm a2 (by nlinarith)) hne⟩
  · rw [if_neg (by omega : ¬ Y ≥ n), if_neg (by omega : ¬ Y < 0)]
    exact ⟨by linarith, by linarith, fun _ => by linarith⟩

/-- C04 (cell centre): the direction of a histogram index is the centre of the angular interval of that cell on both
axes when the resolution is an even number of degrees (half a degree below it otherwise), and carries the given radius. -/
theorem C04_index_is_centre (e z : ℤ) (res : ℕ) (r : K) :
    let p : PolarPoint K := histogramIndexToPolar e z res r
    p.r = r ∧
    (res % 2 = 0 → p.e = (((e : K) * res - 90) + (((e : K) + 1) * res - 90)) / 2 ∧
      p.z = (((z : K) * res - 180) + (((z : K) + 1) * res - 180)) / 2) ∧
    (res % 2 = 1 → p.e + 1 / 2 = (((e : K) * res - 90) + (((e : K) + 1) * res - 90)) / 2 ∧
      p.z + 1 / 2 = (((z : K) * res - 180) + (((z : K) + 1) * res - 180)) / 2) := by
  intro p
  refine ⟨rfl, fun h => ?_, fun h => ?_⟩
  · obtain ⟨m, rfl⟩ : ∃ m, res = 2 * m := ⟨res / 2, by omega⟩
    have hd : ((2 * m : ℕ) : ℤ) / 2 = m := by omega
    constructor
    · show ((e * (2 * m : ℕ) + ((2 * m : ℕ) : ℤ) / 2 - 90 : ℤ) : K) = _
      rw [hd]; push_cast; ring
    · show ((z * (2 * m : ℕ) + ((2 * m : ℕ) : ℤ) / 2 - 180 : ℤ) : K) = _
      rw [hd]; push_cast; ring
  · obtain ⟨m, rfl⟩ : ∃ m, res = 2 * m + 1 := ⟨res / 2, by omega⟩
    have hd : ((2 * m + 1 : ℕ) : ℤ) / 2 = m := by omega
    constructor
    · show ((e * (2 * m + 1 : ℕ) + ((2 * m + 1 : ℕ) : ℤ) / 2 - 90 : ℤ) : K) + 1 / 2 = _
      rw [hd]; push_cast; ring
    · show ((z * (2 * m + 1 : ℕ) + ((2 * m + 1 : ℕ) : ℤ) / 2 - 180 : ℤ) : K) + 1 / 2 = _
      rw [hd]; push_cast; ring

/-- Non-vacuity: at 6° the cell (15, 30) is the one just above and right of straight ahead, with centre (3°, 3°). -/
example : (histogramIndexToPolar 15 30 6 1 : PolarPoint ℚ) = ⟨3, 3, 1⟩ := by decide +kernel

/-- C04 (round trip): the angles of a histogram cell map back to that cell, for every
resolution dividing 180 and every cell. -/
theorem C04_index_round_trip (res : ℕ) (h : res ∣ 180) (e z : ℤ) (r : K)
    (he0 : 0 ≤ e) (he1 : e < (180 / res : ℕ)) (hz0 : 0 ≤ z) (hz1 : z < (360 / res : ℕ)) :
    polarToHistogramIndex (histogramIndexToPolar e z res r) res = (z, e) := by
  obtain ⟨n, hn⟩ := h
  have hres : 0 < res := by rcases Nat.eq_zero_or_pos res with rfl | h <;> omega
  have hresK : (0 : K) < res := by exact_mod_cast hres
  have e1 : 180 / res = n := by rw [hn]; exact Nat.mul_div_cancel_left n hres
  have e2 : 360 / res = 2 * n := by
    rw [show 360 = res * (2 * n) by rw [Nat.mul_left_comm, ← hn]]; exact Nat.mul_div_cancel_left _ hres
  rw [e1] at he1
  rw [e2] at hz1
  have hnZ : (res : ℤ) * n = 180 := by exact_mod_cast hn.symm
  have hhalf0 : (0 : ℤ) ≤ (res : ℤ) / 2 := by omega
  have hhalf1 : (res : ℤ) / 2 < res := by omega
  have be0 : 0 ≤ e * res := by positivity
  have be1 : e * res + res ≤ 180 := by nlinarith
  have bz0 : 0 ≤ z * res := by positivity
  have bz1 : z * res + res ≤ 360 := by push_cast at hz1; nlinarith
  have hw : wrapPolar (histogramIndexToPolar e z res r) = histogramIndexToPolar e z res r := by
    apply C03_wrapPolar_fixed <;> unfold histogramIndexToPolar <;> simp only []
    · have : (-90 : ℤ) ≤ e * res + res / 2 - 90 := by omega
      exact_mod_cast this
    · have : e * res + res / 2 - 90 ≤ (90 : ℤ) := by omega
      exact_mod_cast this
    · have : (-180 : ℤ) ≤ z * res + res / 2 - 180 := by omega
      exact_mod_cast this
    · have : z * res + res / 2 - 180 < (180 : ℤ) := by omega
      exact_mod_cast this
  have floorEq : ∀ (m : ℤ) (c : ℕ), ⌊((m * res + res / 2 - c : ℤ) : K) / (res : K) + (c : K) / res⌋ = m := by
    intro m c
    rw [Int.floor_eq_iff, ← add_div]
    have hc : ((m * res + res / 2 - c : ℤ) : K) + c = ((m * res + res / 2 : ℤ) : K) := by
      push_cast; ring
    rw [hc, le_div_iff₀ hresK, div_lt_iff₀ hresK]
    constructor
    · exact_mod_cast (by omega : m * res ≤ m * res + (res : ℤ) / 2)
    · have : m * res + (res : ℤ) / 2 < (m + 1) * res := by rw [add_mul]; omega
      exact_mod_cast this
  unfold polarToHistogramIndex
  simp only [hw, e1, e2]
  have f1 := floorEq z 180
  have f2 := floorEq e 90
  unfold histogramIndexToPolar
  simp only []
  push_cast at f1 f2 hz1 ⊢
  rw [f1, f2, if_neg (by omega : ¬ z ≥ 2 * n), if_neg (by omega : ¬ z < 0),
    if_neg (by omega : ¬ e ≥ n), if_neg (by omega : ¬ e < 0)]

-- the code's own resolution, last cell
example : (6 : ℕ) ∣ 180 ∧ (29 : ℤ) < (180 / 6 : ℕ) ∧ (59 : ℤ) < (360 / 6 : ℕ) := by decide

/-- C07 (vectors): the two frame conversions undo each other and preserve the squared length. -/
theorem C07_ned_enu_inverse (v : V3 K) :
    toENU (toNED v) = v ∧ toNED (toENU v) = v ∧
    (toNED v).x ^ 2 + (toNED v).y ^ 2 + (toNED v).z ^ 2 = v.x ^ 2 + v.y ^ 2 + v.z ^ 2 := by
  refine ⟨by simp [toENU, toNED], by simp [toENU, toNED], ?_⟩
  simp only [toNED]; ring

/-- C07: the conversion is a rotation (determinant +1), so it maps right-handed frames to
right-handed frames: it commutes with the cross product. -/
theorem C07_toNED_cross (u v : V3 K) :
    let cross (a b : V3 K) : V3 K :=
      ⟨a.y * b.z - a.z * b.y, a.z * b.x - a.x * b.z, a.x * b.y - a.y * b.x⟩
    toNED (cross u v) = cross (toNED u) (toNED v) := by
  ext <;> simp only [toNED] <;> ring

/-- C07 (angles in degrees). -/
theorem C07_angles_inverse (a : K) :
    yawToENUdeg (yawToNEDdeg a) = a ∧ yawToNEDdeg (yawToENUdeg a) = a ∧
    pitchToENU (pitchToNED a) = a ∧ pitchToNED (pitchToENU a) = a := by
  unfold yawToENUdeg yawToNEDdeg pitchToENU pitchToNED
  refine ⟨by ring, by ring, by ring, by ring⟩

end generic

/-! ### Directions in space -/

/-- Sine and cosine of degrees are unchanged by whole turns. -/
theorem trig_of_sameDirection {a b : ℝ} (h : SameDirection 360 a b) :
    Real.cos (a * degToRad) = Real.cos (b * degToRad) ∧
    Real.sin (a * degToRad) = Real.sin (b * degToRad) := by
  obtain ⟨n, rfl⟩ := h
  have : (b + 360 * n) * degToRad = b * degToRad + n * (2 * Real.pi) := by
    unfold degToRad; ring
  rw [this]
  exact ⟨Real.cos_add_int_mul_two_pi _ _, Real.sin_add_int_mul_two_pi _ _⟩

theorem trig_wrapPolar (p : PolarPoint ℝ) :
    let w := wrapPolar p
    Real.cos (w.e * degToRad) * Real.cos (w.z * degToRad) =
      Real.cos (p.e * degToRad) * Real.cos (p.z * degToRad) ∧
    Real.cos (w.e * degToRad) * Real.sin (w.z * degToRad) =
      Real.cos (p.e * degToRad) * Real.sin (p.z * degToRad) ∧
    Real.sin (w.e * degToRad) = Real.sin (p.e * degToRad) := by
  obtain ⟨⟨_, _, he⟩, _⟩ := C01_wrap180_canonical p.e
  obtain ⟨⟨_, _, hz⟩, _⟩ := C01_wrap180_canonical p.z
  obtain ⟨ce, se⟩ := trig_of_sameDirection he
  obtain ⟨cz, sz⟩ := trig_of_sameDirection hz
  rw [ce, se, cz, sz]
  have d180 : ∀ x : ℝ, (180 - x) * degToRad = Real.pi - x * degToRad := by
    intro x; unfold degToRad; ring
  have d180' : ∀ x : ℝ, (-(180 + x)) * degToRad = -(x * degToRad + Real.pi) := by
    intro x; unfold degToRad; ring
  have za : ∀ x : ℝ, (x + 180) * degToRad = x * degToRad + Real.pi := by
    intro x; unfold degToRad; ring
  have zs : ∀ x : ℝ, (x - 180) * degToRad = x * degToRad - Real.pi := by
    intro x; unfold degToRad; ring
  rw [wrapPolar_cases]
  split_ifs <;>
    simp only [d180, d180', za, zs, Real.cos_pi_sub, Real.sin_pi_sub, Real.cos_add_pi, Real.sin_add_pi,
      Real.cos_sub_pi, Real.sin_sub_pi, Real.cos_neg, Real.sin_neg, neg_mul_neg, neg_neg, and_self]

/-- `atan2` recovers the angle of a positive multiple of (cos, sin) (helper). -/
theorem arg_polar {r θ : ℝ} (hr : 0 < r) (h1 : -Real.pi < θ) (h2 : θ ≤ Real.pi) :
    Complex.arg (⟨r * Real.cos θ, r * Real.sin θ⟩ : ℂ) = θ := by
  have h := Complex.arg_mul_cos_add_sin_mul_I hr (θ := θ) ⟨h1, h2⟩
  have e : (⟨r * Real.cos θ, r * Real.sin θ⟩ : ℂ) =
      (r : ℂ) * (Complex.cos θ + Complex.sin θ * Complex.I) := by
    apply Complex.ext <;> simp [Complex.cos_ofReal_re, Complex.sin_ofReal_re]
  rw [e, h]

/-- C03 (direction): `wrapPolar` does not move the point, in either polar convention. -/
theorem C03_wrapPolar_same_point (p : PolarPoint ℝ) (pos : V3 ℝ) :
    polarHistogramToCartesian (wrapPolar p) pos = polarHistogramToCartesian p pos ∧
    polarFCUToCartesian (wrapPolar p) pos = polarFCUToCartesian p pos := by
  obtain ⟨h1, h2, h3⟩ := trig_wrapPolar p
  have hr := (C03_wrapPolar_range p).2.2
  have d90 : ∀ x : ℝ, (90 - x) * degToRad = Real.pi / 2 - x * degToRad := by
    intro x; unfold degToRad; ring
  unfold polarHistogramToCartesian polarFCUToCartesian
  simp only [d90, Real.sin_pi_div_two_sub, Real.cos_pi_div_two_sub, mul_assoc, h1, h2, h3, hr,
    and_self]

/-- C05: converting a point to polar coordinates (histogram convention) and back is the
identity, for every point and origin, including coincident ones and points straight above. -/
theorem C05_cartesian_polar_round_trip (p o : V3 ℝ) :
    polarHistogramToCartesian (cartesianToPolarHistogram p o) o = p := by
  have hrad : ∀ x : ℝ, x * radToDeg * degToRad = x := by
    intro x; unfold radToDeg degToRad; field_simp
  set dx := p.x - o.x with hdx
  set dy := p.y - o.y with hdy
  set dz := p.z - o.z with hdz
  set den := Real.sqrt (dx ^ 2 + dy ^ 2) with hden
  have hden2 : den ^ 2 = dx ^ 2 + dy ^ 2 := Real.sq_sqrt (by positivity)
  set r := Real.sqrt (dx * dx + dy * dy + dz * dz) with hr
  have n1 : ‖(⟨den, dz⟩ : ℂ)‖ = r := by
    rw [Complex.norm_def, Complex.normSq_apply, hr]
    congr 1; simp only []; nlinarith [hden2]
  have n2 : ‖(⟨dy, dx⟩ : ℂ)‖ = den := by
    rw [Complex.norm_def, Complex.normSq_apply, hden]
    congr 1; simp only []; ring
  have c1 := Complex.norm_mul_cos_arg (⟨den, dz⟩ : ℂ)
  have s1 := Complex.norm_mul_sin_arg (⟨den, dz⟩ : ℂ)
  have c2 := Complex.norm_mul_cos_arg (⟨dy, dx⟩ : ℂ)
  have s2 := Complex.norm_mul_sin_arg (⟨dy, dx⟩ : ℂ)
  rw [n1] at c1 s1
  rw [n2] at c2 s2
  simp only [] at c1 s1 c2 s2
  unfold polarHistogramToCartesian cartesianToPolarHistogram atan2
  simp only [hrad]
  ext
  · simp only [← hdx, ← hdy, ← hdz, ← hden, ← hr]; rw [c1, s2]; rw [hdx]; ring
  · simp only [← hdx, ← hdy, ← hdz, ← hden, ← hr]; rw [c1, c2]; rw [hdy]; ring
  · simp only [← hdx, ← hdy, ← hdz, ← hden, ← hr]; rw [s1, hdz]; ring

/-- C05: the polar coordinates are the distance, an elevation in [-90,90] and an azimuth in
(-180,180]. -/
theorem C05_polar_ranges (p o : V3 ℝ) :
    let q := cartesianToPolarHistogram p o
    0 ≤ q.r ∧ q.r ^ 2 = (p.x - o.x) ^ 2 + (p.y - o.y) ^ 2 + (p.z - o.z) ^ 2 ∧
    -90 ≤ q.e ∧ q.e ≤ 90 ∧ -180 < q.z ∧ q.z ≤ 180 := by
  have hpi := Real.pi_pos
  have k1 : (-90 : ℝ) = -(Real.pi / 2) * radToDeg := by unfold radToDeg; field_simp; norm_num
  have k2 : (90 : ℝ) = (Real.pi / 2) * radToDeg := by unfold radToDeg; field_simp; norm_num
  have k3 : (-180 : ℝ) = -Real.pi * radToDeg := by unfold radToDeg; field_simp
  have k4 : (180 : ℝ) = Real.pi * radToDeg := by unfold radToDeg; field_simp
  have hrd : 0 < radToDeg := by unfold radToDeg; positivity
  intro q
  have habs : |Complex.arg ⟨Real.sqrt ((p.x - o.x) ^ 2 + (p.y - o.y) ^ 2), p.z - o.z⟩| ≤
      Real.pi / 2 := Complex.abs_arg_le_pi_div_two_iff.mpr (Real.sqrt_nonneg _)
  obtain ⟨h1, h2⟩ := abs_le.mp habs
  refine ⟨Real.sqrt_nonneg _, ?_, ?_, ?_, ?_, ?_⟩
  · show Real.sqrt _ ^ 2 = _
    rw [Real.sq_sqrt (add_nonneg (add_nonneg (mul_self_nonneg _) (mul_self_nonneg _))
      (mul_self_nonneg _))]; ring
  · rw [k1]; exact mul_le_mul_of_nonneg_right h1 hrd.le
  · rw [k2]; exact mul_le_mul_of_nonneg_right h2 hrd.le
  · rw [k3]; exact mul_lt_mul_of_pos_right (Complex.neg_pi_lt_arg _) hrd
  · rw [k4]; exact mul_le_mul_of_nonneg_right (Complex.arg_le_pi _) hrd.le

/-- C05 (other direction): a polar point with positive radius, elevation strictly between the
poles and azimuth in (-180,180] is recovered exactly from its Cartesian coordinates. -/
theorem C05_polar_cartesian_round_trip (p : PolarPoint ℝ) (o : V3 ℝ) (hr : 0 < p.r)
    (he1 : -90 < p.e) (he2 : p.e < 90) (hz1 : -180 < p.z) (hz2 : p.z ≤ 180) :
    cartesianToPolarHistogram (polarHistogramToCartesian p o) o = p := by
  have hpi := Real.pi_pos
  have hd : 0 < degToRad := by unfold degToRad; positivity
  have hrad : ∀ x : ℝ, x * degToRad * radToDeg = x := by
    intro x; unfold radToDeg degToRad; field_simp
  set E := p.e * degToRad with hE
  set Z := p.z * degToRad with hZ
  have k2 : (90 : ℝ) * degToRad = Real.pi / 2 := by unfold degToRad; ring
  have k4 : (180 : ℝ) * degToRad = Real.pi := by unfold degToRad; ring
  have E1 : -(Real.pi / 2) < E := by
    have := mul_lt_mul_of_pos_right he1 hd
    rw [hE]; linarith
  have E2 : E < Real.pi / 2 := by
    have := mul_lt_mul_of_pos_right he2 hd
    rw [hE]; linarith
  have Z1 : -Real.pi < Z := by
    have := mul_lt_mul_of_pos_right hz1 hd
    rw [hZ]; linarith
  have Z2 : Z ≤ Real.pi := by
    have := mul_le_mul_of_nonneg_right hz2 hd.le
    rw [hZ]; linarith
  have hcos : 0 < Real.cos E := Real.cos_pos_of_mem_Ioo ⟨E1, E2⟩
  have hrc : 0 < p.r * Real.cos E := mul_pos hr hcos
  have hsc := Real.sin_sq_add_cos_sq Z
  have hscE := Real.sin_sq_add_cos_sq E
  have hden : Real.sqrt ((p.r * Real.cos E * Real.sin Z) ^ 2 + (p.r * Real.cos E * Real.cos Z) ^ 2)
      = p.r * Real.cos E := by
    rw [show (p.r * Real.cos E * Real.sin Z) ^ 2 + (p.r * Real.cos E * Real.cos Z) ^ 2 =
      (p.r * Real.cos E) ^ 2 * (Real.sin Z ^ 2 + Real.cos Z ^ 2) by ring, hsc, mul_one]
    exact Real.sqrt_sq hrc.le
  have hrr : Real.sqrt (p.r * Real.cos E * Real.sin Z * (p.r * Real.cos E * Real.sin Z) +
      p.r * Real.cos E * Real.cos Z * (p.r * Real.cos E * Real.cos Z) +
      p.r * Real.sin E * (p.r * Real.sin E)) = p.r := by
    rw [show p.r * Real.cos E * Real.sin Z * (p.r * Real.cos E * Real.sin Z) +
      p.r * Real.cos E * Real.cos Z * (p.r * Real.cos E * Real.cos Z) +
      p.r * Real.sin E * (p.r * Real.sin E) =
      p.r ^ 2 * (Real.cos E ^ 2 * (Real.sin Z ^ 2 + Real.cos Z ^ 2) + Real.sin E ^ 2) by ring, hsc,
      mul_one, add_comm, hscE, mul_one]
    exact Real.sqrt_sq hr.le
  have argE : Complex.arg (⟨p.r * Real.cos E, p.r * Real.sin E⟩ : ℂ) = E :=
    arg_polar hr (by linarith) (by linarith)
  have argZ : Complex.arg (⟨p.r * Real.cos E * Real.cos Z, p.r * Real.cos E * Real.sin Z⟩ : ℂ) = Z :=
    arg_polar hrc Z1 Z2
  unfold cartesianToPolarHistogram polarHistogramToCartesian atan2
  simp only [add_sub_cancel_left, ← hE, ← hZ, hden, hrr, argE, argZ]
  ext <;> simp [hE, hZ, hrad]

example : (0:ℝ) < 3 ∧ (-90:ℝ) < 30 ∧ (30:ℝ) < 90 ∧ (-180:ℝ) < -120 ∧ (-120:ℝ) ≤ 180 := by norm_num

/-- `wrapPolar` only depends on the azimuth up to whole turns (helper). -/
theorem wrapPolar_congr {e z z' r : ℝ} (h : SameDirection 360 z z') :
    wrapPolar (⟨e, z, r⟩ : PolarPoint ℝ) = wrapPolar ⟨e, z', r⟩ := by
  obtain ⟨n, rfl⟩ := h
  rw [wrapPolar_cases, wrapPolar_cases]
  simp only [(C01_wrap180_turns z' n).2]

/-- C05 (other direction, any azimuth): the point at distance `r`, elevation `α` and azimuth `β`
(clockwise from north) has these polar coordinates, the azimuth up to whole turns. -/
theorem C05_polar_of_direction (o : V3 ℝ) (r α β : ℝ) (hr : 0 < r) (h1 : -90 < α) (h2 : α < 90) :
    ∃ β', SameDirection 360 β β' ∧ -180 < β' ∧ β' ≤ 180 ∧
      cartesianToPolarHistogram ⟨o.x + r * Real.cos (α * degToRad) * Real.sin (β * degToRad),
        o.y + r * Real.cos (α * degToRad) * Real.cos (β * degToRad),
        o.z + r * Real.sin (α * degToRad)⟩ o = ⟨α, β', r⟩ := by
  obtain ⟨⟨a1, a2, n, hn⟩, _⟩ := C01_wrap180_canonical (-β)
  have hd : SameDirection 360 β (-wrap180 (-β)) := ⟨-n, by push_cast; linarith⟩
  refine ⟨-wrap180 (-β), hd, by linarith, by linarith, ?_⟩
  have h := C05_polar_cartesian_round_trip ⟨α, -wrap180 (-β), r⟩ o hr h1 h2
    (by simp only []; linarith) (by simp only []; linarith)
  obtain ⟨c, s⟩ := trig_of_sameDirection hd
  unfold polarHistogramToCartesian at h
  simp only [← c, ← s] at h
  exact h

/-- C06: what the FCU round trip really returns: the horizontal position is right, the height
offset is mirrored. -/
theorem C06_fcu_round_trip_mirrors_height (p o : V3 ℝ) :
    polarFCUToCartesian (cartesianToPolarFCU p o) o = ⟨p.x, p.y, o.z - (p.z - o.z)⟩ := by
  have h := C05_cartesian_polar_round_trip p o
  unfold cartesianToPolarFCU
  simp only []
  rw [(C03_wrapPolar_same_point _ o).2]
  set q := cartesianToPolarHistogram p o
  have hx := congrArg V3.x h
  have hy := congrArg V3.y h
  have hz := congrArg V3.z h
  simp only [polarHistogramToCartesian] at hx hy hz
  have a1 : (90 - -q.e) * degToRad = q.e * degToRad + Real.pi / 2 := by unfold degToRad; ring
  have a2 : (-q.z + 90) * degToRad = Real.pi / 2 - q.z * degToRad := by unfold degToRad; ring
  unfold polarFCUToCartesian
  simp only [a1, a2, Real.sin_add_pi_div_two, Real.cos_add_pi_div_two, Real.sin_pi_div_two_sub,
    Real.cos_pi_div_two_sub]
  ext
  · simpa using hx
  · simpa using hy
  · simp only []; linarith

/-- C06 (partial): the FCU round trip is the identity exactly for points at the height of the
origin.  Missing for the full claim `polarFCUToCartesian (cartesianToPolarFCU p o) o = p`: all
other points, for which the claim is false of the code. -/
theorem C06_fcu_round_trip_partial (p o : V3 ℝ) :
    polarFCUToCartesian (cartesianToPolarFCU p o) o = p ↔ p.z = o.z := by
  rw [C06_fcu_round_trip_mirrors_height]
  constructor
  · intro h; have := congrArg V3.z h; simp only [] at this; linarith
  · intro h; ext <;> simp [h]

/-- C06: witness that the round trip is not the identity: a point one metre above the origin comes
back one metre below. -/
theorem C06_fcu_round_trip_fails :
    polarFCUToCartesian (cartesianToPolarFCU ⟨0, 2, 1⟩ ⟨0, 0, 0⟩) ⟨0, 0, 0⟩ = ⟨0, 2, -1⟩ := by
  rw [C06_fcu_round_trip_mirrors_height]; norm_num

/-- C07 (radians). -/
theorem C07_yaw_rad_inverse (a : ℝ) :
    yawToENUrad (yawToNEDrad a) = a ∧ yawToNEDrad (yawToENUrad a) = a := by
  unfold yawToENUrad yawToNEDrad; constructor <;> ring

theorem Quat.mul_assoc {K : Type*} [CommRing K] (a b c : Quat K) :
    (a.mul b).mul c = a.mul (b.mul c) := by
  ext <;> simp only [Quat.mul] <;> ring

theorem ned_enu_q_val :
    quaternionFromRPY Real.pi 0 (Real.pi / 2) = ⟨0, Real.sqrt 2 / 2, Real.sqrt 2 / 2, 0⟩ := by
  have h4 : Real.pi / 2 / 2 = Real.pi / 4 := by ring
  unfold quaternionFromRPY angleAxis
  rw [h4, Real.cos_pi_div_four, Real.sin_pi_div_four, Real.cos_pi_div_two, Real.sin_pi_div_two]
  ext <;> simp [Quat.mul]

theorem baselink_q_val : quaternionFromRPY Real.pi 0 0 = ⟨0, 1, 0, 0⟩ := by
  unfold quaternionFromRPY angleAxis
  rw [Real.cos_pi_div_two, Real.sin_pi_div_two]
  ext <;> simp [Quat.mul]

/-- C07 (which axis is which): east, north and up of the ENU frame are the second axis, the first
axis and minus the third axis (down) of the NED frame. -/
theorem C07_axes (e n u : ℝ) :
    (toNED (⟨e, n, u⟩ : V3 ℝ)) = ⟨n, e, -u⟩ ∧ (toENU (⟨n, e, -u⟩ : V3 ℝ)) = ⟨e, n, u⟩ := by
  simp [toNED, toENU]

/-- C07 (angles agree with vectors): the unit heading vector at yaw `ψ` counter-clockwise from east
in ENU, converted to NED, is the unit vector at the converted yaw clockwise from north; the same in
degrees, and for the way back. -/
theorem C07_heading (ψ u : ℝ) :
    toNED (⟨Real.cos ψ, Real.sin ψ, u⟩ : V3 ℝ) =
      ⟨Real.cos (yawToNEDrad ψ), Real.sin (yawToNEDrad ψ), -u⟩ ∧
    toENU (⟨Real.cos ψ, Real.sin ψ, u⟩ : V3 ℝ) =
      ⟨Real.cos (yawToENUrad ψ), Real.sin (yawToENUrad ψ), -u⟩ ∧
    (∀ d : ℝ, yawToNEDdeg d * (Real.pi / 180) = yawToNEDrad (d * (Real.pi / 180)) ∧
      yawToENUdeg d * (Real.pi / 180) = yawToENUrad (d * (Real.pi / 180))) := by
  refine ⟨?_, ?_, fun d => ⟨?_, ?_⟩⟩
  · simp [toNED, yawToNEDrad, Real.cos_pi_div_two_sub, Real.sin_pi_div_two_sub]
  · simp [toENU, yawToENUrad, Real.cos_pi_div_two_sub, Real.sin_pi_div_two_sub]
  · unfold yawToNEDdeg yawToNEDrad; ring
  · unfold yawToENUdeg yawToENUrad; ring

/-- C07 (pitch): a rotation by the ENU pitch `θ` about the body's left axis takes the forward axis
to (cos θ, 0, -sin θ) in the forward-left-up frame; in the forward-right-down frame the rotation by
the converted pitch about the right axis gives the same direction (up is minus down). -/
theorem C07_pitch (θ : ℝ) :
    (⟨Real.cos θ, 0, -(-Real.sin θ)⟩ : V3 ℝ) =
      ⟨Real.cos (pitchToNED θ), 0, -Real.sin (pitchToNED θ)⟩ ∧
    (⟨Real.cos θ, 0, -(-Real.sin θ)⟩ : V3 ℝ) =
      ⟨Real.cos (pitchToENU θ), 0, -Real.sin (pitchToENU θ)⟩ := by
  simp [pitchToNED, pitchToENU]

/-- C07 (orientations): converting an orientation to NED and back returns the same quaternion,
in both orders. -/
theorem C07_orientation_inverse (q : Quat ℝ) :
    orientationToENU (orientationToNED q) = q ∧ orientationToNED (orientationToENU q) = q := by
  have hs : Real.sqrt 2 * Real.sqrt 2 = 2 := Real.mul_self_sqrt (by norm_num)
  unfold orientationToENU orientationToNED
  simp only [ned_enu_q_val, baselink_q_val]
  generalize Real.sqrt 2 = s at hs
  have key : ∀ x : ℝ, s / 2 * (s / 2 * x) = x / 2 := by
    intro x; linear_combination (x / 4) * hs
  constructor <;> ext <;> simp only [Quat.mul]
  · linear_combination (q.w / 2) * hs
  · linear_combination (q.x / 2) * hs
  · linear_combination (q.y / 2) * hs
  · linear_combination (q.z / 2) * hs
  · linear_combination (q.w / 2) * hs
  · linear_combination (q.x / 2) * hs
  · linear_combination (q.y / 2) * hs
  · linear_combination (q.z / 2) * hs

/-- C07: the orientation conversion is compatible with the vector conversion: the body vector `v`
(forward-left-up), rotated by the ENU orientation `q` and converted to NED, is the body vector
expressed forward-right-down, rotated by the converted orientation. -/
theorem C07_orientation_compatible (q : Quat ℝ) (v : V3 ℝ) :
    let conj (a : Quat ℝ) : Quat ℝ := ⟨a.w, -a.x, -a.y, -a.z⟩
    let rot (a : Quat ℝ) (u : V3 ℝ) : V3 ℝ :=
      let p := (a.mul ⟨0, u.x, u.y, u.z⟩).mul (conj a)
      ⟨p.x, p.y, p.z⟩
    toNED (rot q v) = rot (orientationToNED q) ⟨v.x, -v.y, -v.z⟩ := by
  have hs : Real.sqrt 2 * Real.sqrt 2 = 2 := Real.mul_self_sqrt (by norm_num)
  unfold orientationToNED
  simp only [ned_enu_q_val, baselink_q_val]
  generalize Real.sqrt 2 = s at hs
  obtain ⟨w, x, y, z⟩ := q
  obtain ⟨a, b, c⟩ := v
  have hs2 : s ^ 2 = 2 := by rw [sq]; exact hs
  ext <;> simp only [Quat.mul, toNED] <;> ring_nf <;> rw [hs2] <;> ring

/-- C62: yaw and pitch written into a quaternion as roll-pitch-yaw are read back unchanged, for
every roll, every pitch strictly between the poles and every yaw in (-π,π]. -/
theorem C62_rpy_read_back (roll pitch yaw : ℝ) (p1 : -(Real.pi / 2) < pitch)
    (p2 : pitch < Real.pi / 2) (h1 : -Real.pi < yaw) (h2 : yaw ≤ Real.pi) :
    getYawFromQuaternion (quaternionFromRPY roll pitch yaw) = yaw * radToDeg ∧
    getPitchFromQuaternion (quaternionFromRPY roll pitch yaw) = pitch * radToDeg := by
  have hcos : 0 < Real.cos pitch := Real.cos_pos_of_mem_Ioo ⟨p1, p2⟩
  have harg := arg_polar hcos h1 h2
  have e2 : ∀ a : ℝ, Real.sin a = 2 * Real.sin (a / 2) * Real.cos (a / 2) := by
    intro a; rw [← Real.sin_two_mul]; ring_nf
  have e3 : ∀ a : ℝ, Real.cos a = Real.cos (a / 2) ^ 2 - Real.sin (a / 2) ^ 2 := by
    intro a; rw [← Real.cos_two_mul']; ring_nf
  have u1 := Real.sin_sq_add_cos_sq (roll / 2)
  have u2 := Real.sin_sq_add_cos_sq (pitch / 2)
  have u3 := Real.sin_sq_add_cos_sq (yaw / 2)
  have hsin : |Real.sin pitch| < 1 := by
    rw [← sq_lt_one_iff_abs_lt_one]
    nlinarith [Real.sin_sq_add_cos_sq pitch, mul_pos hcos hcos]
  have harc : Real.arcsin (Real.sin pitch) = pitch :=
    Real.arcsin_sin p1.le p2.le
  unfold getYawFromQuaternion getPitchFromQuaternion atan2 quaternionFromRPY angleAxis
  simp only [Quat.mul]
  have sy := e2 yaw
  have sp := e2 pitch
  have cy := e3 yaw
  have cp := e3 pitch
  generalize Real.sin yaw = SY at *
  generalize Real.cos yaw = CY at *
  generalize Real.sin pitch = SP at *
  generalize Real.cos pitch = CP at *
  generalize Real.sin (yaw / 2) = c at *
  generalize Real.cos (yaw / 2) = d at *
  generalize Real.sin (pitch / 2) = e at *
  generalize Real.cos (pitch / 2) = f at *
  generalize Real.sin (roll / 2) = g at *
  generalize Real.cos (roll / 2) = k at *
  subst sy sp cy cp
  constructor
  · congr 1
    rw [← harg]
    congr 1
    apply Complex.ext
    · simp only []
      linear_combination (-2 * (e ^ 2 * d ^ 2 + f ^ 2 * c ^ 2)) * u1 - u2 * (c ^ 2 + d ^ 2) - u3
    · simp only []
      linear_combination (2 * d * c * (f ^ 2 - e ^ 2)) * u1
  · congr 1
    rw [← harc]
    have key : ∀ s : ℝ, s = 2 * e * f → (if |s| ≥ 1 then (if s < 0 then -(Real.pi / 2) else Real.pi / 2)
        else Real.arcsin s) = Real.arcsin (2 * e * f) := by
      rintro s rfl
      rw [if_neg (not_le.mpr hsin)]
    apply key
    linear_combination (2 * e * f * (c ^ 2 + d ^ 2)) * u1 + 2 * e * f * u3

example : -(Real.pi / 2) < (1 : ℝ) / 2 ∧ (1 : ℝ) / 2 < Real.pi / 2 ∧ -Real.pi < -2 ∧ -2 ≤ Real.pi := by
  refine ⟨?_, ?_, ?_, ?_⟩ <;> linarith [Real.pi_gt_d2]

/-- C62: in particular the yaw of a pose built by `createPoseMsg` is read back. -/
theorem C62_pose_yaw_round_trip (yaw : ℝ) (h1 : -Real.pi < yaw) (h2 : yaw ≤ Real.pi) :
    getYawFromQuaternion (createPoseOrientation yaw) = yaw * radToDeg := by
  have hpi := Real.pi_pos
  rw [← (C62_rpy_read_back 0 0 yaw (by linarith) (by linarith) h1 h2).1]
  congr 1
  unfold createPoseOrientation quaternionFromRPY angleAxis
  ext <;> simp [Quat.mul]

end Avoidance
