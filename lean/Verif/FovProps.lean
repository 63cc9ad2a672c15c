import Verif.Fov
import Verif.PolarProps
import Mathlib.Data.List.Sigma

/-! # Properties of the field-of-view functions (C11 – C14, C63) -/

set_option linter.unusedSectionVars false

namespace Avoidance

section generic
variable {K : Type*} [Field K] [LinearOrder K] [IsStrictOrderedRing K] [FloorRing K]

/-- Specification: the azimuth `z` is within half the opening angle of the camera axis, going
around the circle. -/
def WithinHalfOpening (fov : FOV K) (z : K) : Prop :=
  ∃ d : K, |d| ≤ fov.hFov / 2 ∧ SameDirection 360 z (fov.yaw + d)

/-- C11 (partial): for a camera whose field of view does not cross the ±180° line, a direction with
azimuth in [-180,180) is inside the yaw field of view exactly if it is within half the opening angle
of the axis.  Missing for the full claim: cameras that look across the ±180° line, for which the
code is wrong (`C11_wrapping_camera_blind`). -/
theorem C11_yaw_fov_membership_partial (fov : FOV K) (p : PolarPoint K)
    (hlo : -180 ≤ fov.yaw - fov.hFov / 2) (hhi : fov.yaw + fov.hFov / 2 < 180) (hh : 0 ≤ fov.hFov)
    (hz1 : -180 ≤ p.z) (hz2 : p.z < 180) :
    pointInsideYawFOV1 fov p = true ↔ WithinHalfOpening fov p.z := by
  have w1 : wrap180 (fov.yaw + fov.hFov / 2) = fov.yaw + fov.hFov / 2 :=
    ((C01_wrap180_canonical _).2 _ (by linarith) hhi ⟨0, by simp⟩).symm
  have w2 : wrap180 (fov.yaw - fov.hFov / 2) = fov.yaw - fov.hFov / 2 :=
    ((C01_wrap180_canonical _).2 _ hlo (by linarith) ⟨0, by simp⟩).symm
  unfold pointInsideYawFOV1 WithinHalfOpening
  rw [w1, w2]
  simp only [Bool.and_eq_true, decide_eq_true_eq, ge_iff_le]
  constructor
  · rintro ⟨h1, h2⟩
    exact ⟨p.z - fov.yaw, abs_le.mpr ⟨by linarith, by linarith⟩, 0, by simp⟩
  · rintro ⟨d, hd, n, hn⟩
    obtain ⟨d1, d2⟩ := abs_le.mp hd
    have : p.z = fov.yaw + d :=
      eq_of_turns (T := 360) (lo := -180) (by norm_num) n hz1 (by linarith) (by linarith)
        (by linarith) hn
    constructor <;> linarith

/-- C11 (partial, both axes): the same for the two-axis test. -/
theorem C11_fov_membership_partial (fov : FOV K) (p : PolarPoint K)
    (hlo : -180 ≤ fov.yaw - fov.hFov / 2) (hhi : fov.yaw + fov.hFov / 2 < 180) (hh : 0 ≤ fov.hFov)
    (hz1 : -180 ≤ p.z) (hz2 : p.z < 180) :
    pointInsideFOV1 fov p = true ↔
      WithinHalfOpening fov p.z ∧ |p.e - fov.pitch| ≤ fov.vFov / 2 := by
  rw [← C11_yaw_fov_membership_partial fov p hlo hhi hh hz1 hz2]
  unfold pointInsideFOV1 pointInsideYawFOV1
  simp only [Bool.and_eq_true, decide_eq_true_eq, ge_iff_le, abs_le]
  constructor
  · rintro ⟨⟨⟨a, b⟩, c⟩, d⟩; exact ⟨⟨a, b⟩, by linarith, by linarith⟩
  · rintro ⟨⟨a, b⟩, c, d⟩; exact ⟨⟨⟨a, b⟩, by linarith⟩, by linarith⟩

-- a forward-looking camera of 60° and a direction inside it
example : ∃ (fov : FOV ℚ) (p : PolarPoint ℚ), -180 ≤ fov.yaw - fov.hFov / 2 ∧
    fov.yaw + fov.hFov / 2 < 180 ∧ 0 ≤ fov.hFov ∧ -180 ≤ p.z ∧ p.z < 180 ∧
    WithinHalfOpening fov p.z :=
  ⟨⟨10, 0, 60, 45⟩, ⟨0, 40, 1⟩, by norm_num, by norm_num, by norm_num, by norm_num, by norm_num,
    30, by norm_num [abs_of_pos], 0, by norm_num⟩

/-- C11 (the code's defect): a camera with an opening angle below a full turn whose field of view
crosses the ±180° line — for example a rear camera — contains *no* direction at all. -/
theorem C11_wrapping_camera_blind (fov : FOV K) (hy : -180 ≤ fov.yaw) (hy' : fov.yaw < 180)
    (h360 : fov.hFov < 360) (h0 : 0 ≤ fov.hFov)
    (hcross : 180 ≤ fov.yaw + fov.hFov / 2 ∨ fov.yaw - fov.hFov / 2 < -180)
    (hone : -180 ≤ fov.yaw - fov.hFov / 2 ∨ fov.yaw + fov.hFov / 2 < 180)
    (p : PolarPoint K) :
    pointInsideYawFOV1 fov p = false ∧ pointInsideFOV1 fov p = false := by
  have key : wrap180 (fov.yaw + fov.hFov / 2) < wrap180 (fov.yaw - fov.hFov / 2) := by
    rcases hcross with hc | hc
    · have hlo : -180 ≤ fov.yaw - fov.hFov / 2 := by
        rcases hone with h | h
        · exact h
        · linarith
      have w1 : fov.yaw + fov.hFov / 2 - 360 = wrap180 (fov.yaw + fov.hFov / 2) :=
        (C01_wrap180_canonical _).2 _ (by linarith) (by linarith) ⟨1, by push_cast; ring⟩
      have w2 : fov.yaw - fov.hFov / 2 = wrap180 (fov.yaw - fov.hFov / 2) :=
        (C01_wrap180_canonical _).2 _ hlo (by linarith) ⟨0, by simp⟩
      rw [← w1, ← w2]; linarith
    · have hhi : fov.yaw + fov.hFov / 2 < 180 := by
        rcases hone with h | h
        · linarith
        · exact h
      have w1 : fov.yaw + fov.hFov / 2 = wrap180 (fov.yaw + fov.hFov / 2) :=
        (C01_wrap180_canonical _).2 _ (by linarith) hhi ⟨0, by simp⟩
      have w2 : fov.yaw - fov.hFov / 2 + 360 = wrap180 (fov.yaw - fov.hFov / 2) :=
        (C01_wrap180_canonical _).2 _ (by linarith) (by linarith) ⟨-1, by push_cast; ring⟩
      rw [← w1, ← w2]; linarith
  unfold pointInsideYawFOV1 pointInsideFOV1
  constructor
  · simp only [Bool.and_eq_false_iff, decide_eq_false_iff_not, not_le, ge_iff_le]
    rcases lt_or_ge (wrap180 (fov.yaw + fov.hFov / 2)) p.z with h | h
    · exact Or.inl h
    · exact Or.inr (by linarith)
  · simp only [Bool.and_eq_false_iff, decide_eq_false_iff_not, not_le, ge_iff_le]
    rcases lt_or_ge (wrap180 (fov.yaw + fov.hFov / 2)) p.z with h | h
    · exact Or.inl (Or.inl (Or.inl h))
    · exact Or.inl (Or.inl (Or.inr (by linarith)))

/-- C11: witness that the full claim fails: a rear camera does not see its own axis. -/
theorem C11_membership_fails :
    WithinHalfOpening (⟨-180, 0, 60, 45⟩ : FOV ℚ) (-180) ∧
    pointInsideYawFOV1 (⟨-180, 0, 60, 45⟩ : FOV ℚ) ⟨0, -180, 1⟩ = false := by
  refine ⟨⟨0, by norm_num, 0, by norm_num⟩, ?_⟩
  exact (C11_wrapping_camera_blind _ (by norm_num) (by norm_num) (by norm_num) (by norm_num)
    (Or.inr (by norm_num)) (Or.inr (by norm_num)) _).1

/-- C11: inside a set of cameras means inside at least one of them. -/
theorem C11_fov_list (fovs : List (FOV K)) (p : PolarPoint K) :
    (pointInsideFOV fovs p = true ↔ ∃ f ∈ fovs, pointInsideFOV1 f p = true) ∧
    (pointInsideYawFOV fovs p = true ↔ ∃ f ∈ fovs, pointInsideYawFOV1 f p = true) := by
  induction fovs with
  | nil => simp [pointInsideFOV, pointInsideYawFOV]
  | cons f fs ih =>
    simp only [pointInsideFOV, pointInsideYawFOV, List.mem_cons, exists_eq_or_imp]
    constructor
    · split_ifs with h
      · simp [h]
      · simp [h, ih.1]
    · split_ifs with h
      · simp [h]
      · simp [h, ih.2]

/-- Loop invariant of `isInWhichFOV`. -/
theorem isInWhichLoop_spec (p : PolarPoint K) (fs : List (FOV K)) (i : ℕ) (ret : Bool) (idx : ℤ) :
    isInWhichLoop p fs i ret idx =
      match ret, (fs.zipIdx i).filter (fun fi => pointInsideYawFOV1 fi.1 p) with
      | r, [] => (r, idx)
      | true, _ :: _ => (false, -1)
      | false, [fi] => (true, (fi.2 : ℤ))
      | false, _ :: _ :: _ => (false, -1) := by
  induction fs generalizing i ret idx with
  | nil => cases ret <;> rfl
  | cons f fs ih =>
    simp only [isInWhichLoop, List.zipIdx_cons]
    by_cases h : pointInsideYawFOV1 f p = true
    · simp only [if_pos h, List.filter_cons]
      cases ret with
      | true => simp
      | false =>
        simp only [Bool.false_eq_true, if_false]
        rw [ih]
        cases hfl : (fs.zipIdx (i + 1)).filter (fun fi => pointInsideYawFOV1 fi.1 p) with
        | nil => rfl
        | cons a l => rfl
    · simp only [if_neg h, List.filter_cons]
      exact ih _ _ _

/-- C12: `isInWhichFOV` returns true with index `i` exactly when camera `i` exists and is the only
camera whose yaw field of view contains the direction; in all other cases it returns false with
index -1. -/
theorem C12_isInWhichFOV_unique (fovs : List (FOV K)) (p : PolarPoint K) :
    (∀ i : ℕ, isInWhichFOV fovs p = (true, (i : ℤ)) ↔
      i < fovs.length ∧ ∀ j f, fovs[j]? = some f → (pointInsideYawFOV1 f p = true ↔ j = i)) ∧
    ((isInWhichFOV fovs p).1 = false → isInWhichFOV fovs p = (false, -1)) ∧
    ((isInWhichFOV fovs p).1 = true → ∃ i : ℕ, isInWhichFOV fovs p = (true, (i : ℤ))) := by
  have hs : isInWhichFOV fovs p = _ := isInWhichLoop_spec p fovs 0 false (-1)
  have hmem : ∀ (f : FOV K) (j : ℕ),
      (f, j) ∈ (fovs.zipIdx 0).filter (fun fi => pointInsideYawFOV1 fi.1 p) ↔
        fovs[j]? = some f ∧ pointInsideYawFOV1 f p = true := by
    intro f j
    rw [List.mem_filter, List.mem_zipIdx_iff_getElem?]
  have hnd : ((fovs.zipIdx 0).filter (fun fi => pointInsideYawFOV1 fi.1 p)).Nodup := by
    apply List.Nodup.filter
    have := List.nodup_zipIdx_map_snd fovs
    exact List.Nodup.of_map _ this
  cases hfl : (fovs.zipIdx 0).filter (fun fi => pointInsideYawFOV1 fi.1 p) with
  | nil =>
    rw [hfl] at hs hmem
    simp only at hs
    rw [hs]
    refine ⟨fun i => ⟨fun h => (by simp at h), ?_⟩, fun _ => rfl, fun h => (by simp at h)⟩
    rintro ⟨hi, hall⟩
    have hf := hall i fovs[i] (by simp [hi])
    exact absurd ((hmem fovs[i] i).mpr ⟨by simp [hi], hf.mpr rfl⟩) (by simp)
  | cons a l =>
    obtain ⟨f0, i0⟩ := a
    cases l with
    | nil =>
      rw [hfl] at hs hmem
      simp only at hs
      rw [hs]
      have h0 := (hmem f0 i0).mp (by simp)
      refine ⟨fun i => ⟨?_, ?_⟩, fun h => (by simp at h), fun _ => ⟨i0, rfl⟩⟩
      · intro h
        have hi : i0 = i := by simpa using h
        subst hi
        refine ⟨(List.getElem?_eq_some_iff.mp h0.1).1, fun j f hj => ⟨fun hin => ?_, fun hji => ?_⟩⟩
        · have := (hmem f j).mpr ⟨hj, hin⟩
          simp at this
          exact this.2
        · subst hji
          rw [h0.1] at hj
          cases hj
          exact h0.2
      · rintro ⟨hi, hall⟩
        have : i0 = i := (hall i0 f0 h0.1).mp h0.2
        rw [this]
    | cons b l =>
      obtain ⟨f1, i1⟩ := b
      rw [hfl] at hs hmem hnd
      simp only at hs
      rw [hs]
      refine ⟨fun i => ⟨fun h => (by simp at h), ?_⟩, fun _ => rfl, fun h => (by simp at h)⟩
      rintro ⟨hi, hall⟩
      have h0 := (hmem f0 i0).mp (by simp)
      have h1 := (hmem f1 i1).mp (by simp)
      have e0 := (hall i0 f0 h0.1).mp h0.2
      have e1 := (hall i1 f1 h1.1).mp h1.2
      subst e0
      have e2 : i1 = i0 := e1
      subst e2
      rw [h0.1] at h1
      have : f0 = f1 := by simpa using h1.1
      subst this
      simp at hnd

/-- Specification: the azimuth half a cell (3°) beyond the border of camera `f` on the side on which
`p` lies. -/
def justOutside (f : FOV K) (p : PolarPoint K) : K :=
  if wrap180 (p.z - f.yaw) > 0 then wrap180 (f.yaw + f.hFov / 2 + 3)
  else wrap180 (f.yaw - f.hFov / 2 - 3)

/-- C12: `isOnEdgeOfFOV` never reads outside the camera list; when it returns true the index is
that of the unique camera containing the direction, and the direction half a cell beyond that
camera's nearer border is in no camera; when it returns false the index is -1. -/
theorem C12_isOnEdge (fovs : List (FOV K)) (p : PolarPoint K) :
    ∃ r, isOnEdgeOfFOV fovs p = some r ∧ (r.1 = false → r.2 = -1) ∧
      (r.1 = true → ∃ (i : ℕ) (f : FOV K), r.2 = (i : ℤ) ∧ fovs[i]? = some f ∧
        isInWhichFOV fovs p = (true, (i : ℤ)) ∧
        ∀ g ∈ fovs, pointInsideYawFOV1 g { p with z := justOutside f p } = false) := by
  obtain ⟨hiff, hfalse, htrue⟩ := C12_isInWhichFOV_unique fovs p
  have h3 : (ALPHA_RES : K) / 2 = 3 := by norm_num [ALPHA_RES]
  unfold isOnEdgeOfFOV
  simp only [h3]
  cases hb : (isInWhichFOV fovs p).1 with
  | false =>
    rw [if_neg (by simp)]
    refine ⟨_, rfl, fun _ => by rw [hfalse hb], fun h => (by simp at h)⟩
  | true =>
    obtain ⟨i, hi⟩ := htrue hb
    have hlt := ((hiff i).mp hi).1
    have hge : ¬ ((i : ℤ) < 0) := by omega
    rw [if_pos rfl]
    simp only [hi, if_neg hge, Int.toNat_natCast, List.getElem?_eq_getElem hlt,
      Option.bind_some]
    refine ⟨_, rfl, ?_, ?_⟩
    · intro h
      simp only at h
      simp [h]
    · intro h
      simp only at h
      refine ⟨i, fovs[i], by simp [h], by simp, rfl, fun g hg => ?_⟩
      by_contra hcon
      have hin : pointInsideYawFOV fovs { p with z := justOutside fovs[i] p } = true :=
        (C11_fov_list fovs _).2.mpr ⟨g, hg, by simpa using hcon⟩
      unfold justOutside at hin
      rw [hin] at h
      simp at h

/-- C12 (converse): whenever a camera is the only one that contains the direction and the direction half a cell beyond that
camera's nearer border is in no camera, `isOnEdgeOfFOV` returns true with that camera's index. -/
theorem C12_isOnEdge_complete (fovs : List (FOV K)) (p : PolarPoint K) (i : ℕ) (f : FOV K) (hf : fovs[i]? = some f)
    (honly : ∀ j g, fovs[j]? = some g → (pointInsideYawFOV1 g p = true ↔ j = i))
    (hout : ∀ g ∈ fovs, pointInsideYawFOV1 g { p with z := justOutside f p } = false) :
    isOnEdgeOfFOV fovs p = some (true, (i : ℤ)) := by
  have hlt : i < fovs.length := by
    by_contra h
    rw [List.getElem?_eq_none (by omega)] at hf
    cases hf
  have hi := ((C12_isInWhichFOV_unique fovs p).1 i).mpr ⟨hlt, honly⟩
  have h3 : (ALPHA_RES : K) / 2 = 3 := by norm_num [ALPHA_RES]
  have hge : ¬ ((i : ℤ) < 0) := by omega
  have hno : pointInsideYawFOV fovs { p with z := justOutside f p } = false := by
    by_contra hcon
    obtain ⟨g, hg, hin⟩ := (C11_fov_list fovs _).2.mp (by simpa using hcon)
    rw [hout g hg] at hin
    cases hin
  unfold isOnEdgeOfFOV
  simp only [h3, hi, if_true, if_neg hge, Int.toNat_natCast, hf, Option.bind_some]
  unfold justOutside at hno
  rw [hno]
  rfl

/-- Non-vacuity: one camera of 60° looking ahead; 25° is in it and 33° in none. -/
example : isOnEdgeOfFOV [(⟨0, 0, 60, 45⟩ : FOV ℚ)] ⟨0, 25, 1⟩ = some (true, 0) := by decide +kernel

/-- C13: `scaleToFOV` is defined (no out-of-bounds read), lies in [0,1], is 0 for a direction
outside every camera, 1 for a direction inside but not on the edge, and on the edge it is
`1 - 2 d / h` where `d` is the angular distance to the axis of the (unique) camera, limited to half
its opening angle `h`: 1 on the axis, 0 at the border. -/
theorem C13_scaleToFOV (fovs : List (FOV K)) (p : PolarPoint K) (hpos : ∀ f ∈ fovs, 0 < f.hFov)
    (hyaw : ∀ f ∈ fovs, |f.yaw - p.z| ≤ 540) :
    ∃ s r, scaleToFOV fovs p = some s ∧ isOnEdgeOfFOV fovs p = some r ∧ 0 ≤ s ∧ s ≤ 1 ∧
      (r.1 = false → s = if pointInsideYawFOV fovs p then 1 else 0) ∧
      (pointInsideYawFOV fovs p = false → s = 0) ∧
      (∀ i : ℕ, r = (true, (i : ℤ)) → ∃ f, fovs[i]? = some f ∧
        s = 1 - 2 * min (f.hFov / 2) |angleDifference f.yaw p.z| / f.hFov) := by
  obtain ⟨r, hr, hrf, hrt⟩ := C12_isOnEdge fovs p
  unfold scaleToFOV
  rw [hr]
  simp only [Option.bind_some]
  cases hb : r.1 with
  | false =>
    rw [if_neg (by simp)]
    refine ⟨_, r, rfl, rfl, ?_, ?_, fun _ => rfl, fun h => by simp [h], ?_⟩
    · split_ifs <;> norm_num
    · split_ifs <;> norm_num
    · intro i hi; rw [hi] at hb; simp at hb
  | true =>
    obtain ⟨i, f, h1, h2, h3, _⟩ := hrt hb
    rw [if_pos rfl, h1]
    rw [if_neg (by omega : ¬ ((i : ℤ) < 0)), Int.toNat_natCast, h2]
    simp only [Option.bind_some]
    have hf : f ∈ fovs := List.mem_of_getElem? h2
    have hh := hpos f hf
    have hmin : min |f.yaw - p.z| |360 - (|f.yaw - p.z|)| = |angleDifference f.yaw p.z| := by
      rw [← C02_indexAngleDifference f.yaw p.z (hyaw f hf)]
      unfold indexAngleDifference
      have hb := abs_le.mp (hyaw f hf)
      rcases le_or_gt 0 (f.yaw - p.z) with h | h
      · rw [abs_of_nonneg h]
        have e1 : |360 - (f.yaw - p.z)| = |f.yaw - p.z - 360| := abs_sub_comm _ _
        rw [e1, abs_of_nonneg (by linarith : 0 ≤ f.yaw - p.z + 360)]
        symm
        apply min_eq_left
        exact (min_le_left _ _).trans (by linarith)
      · rw [abs_of_neg h]
        have e1 : |360 - -(f.yaw - p.z)| = |f.yaw - p.z + 360| := by congr 1; ring
        rw [e1]
        have e2 : -(f.yaw - p.z) ≤ |f.yaw - p.z - 360| := by
          rw [le_abs]; right; linarith
        rw [min_eq_left e2]
    rw [hmin]
    set d := min (f.hFov / 2) |angleDifference f.yaw p.z| with hd
    have d0 : 0 ≤ d := le_min (by linarith) (abs_nonneg _)
    have d1 : d ≤ f.hFov / 2 := min_le_left _ _
    refine ⟨_, r, rfl, rfl, ?_, ?_, fun h => (by rw [hb] at h; cases h), ?_, ?_⟩
    · rw [sub_nonneg, div_le_one hh]; linarith
    · have : 0 ≤ 2 * d / f.hFov := by positivity
      linarith
    · intro hout
      exfalso
      have := ((C12_isInWhichFOV_unique fovs p).1 i).mp h3
      have hin : pointInsideYawFOV1 f p = true := (this.2 i f h2).mpr rfl
      have := (C11_fov_list fovs p).2.mpr ⟨f, hf, hin⟩
      rw [hout] at this; simp at this
    · intro j hj
      have hij : j = i := by
        rw [hj] at h1; simpa using h1
      subst hij
      exact ⟨f, h2, rfl⟩

-- hypotheses: a two-camera rig
example : (∀ f ∈ [(⟨0, 0, 60, 45⟩ : FOV ℚ), ⟨90, 0, 60, 45⟩], 0 < f.hFov) ∧
    (∀ f ∈ [(⟨0, 0, 60, 45⟩ : FOV ℚ), ⟨90, 0, 60, 45⟩], |f.yaw - 25| ≤ 540) := by
  simp [abs_le]; norm_num

/-- C14 (one update): the opening angles never shrink, and each axis keeps its values unless its
own opening angle grows; a grown opening angle is at most 180°. -/
theorem C14_update_monotone (fov : FOV K) (maxima : List (PolarPoint K)) :
    let f' := updateFOVFromPolar fov maxima
    fov.hFov ≤ f'.hFov ∧ fov.vFov ≤ f'.vFov ∧
    (f'.hFov = fov.hFov → f'.yaw = fov.yaw) ∧ (f'.vFov = fov.vFov → f'.pitch = fov.pitch) ∧
    (f'.hFov ≠ fov.hFov → f'.hFov ≤ 180) ∧ (f'.vFov ≠ fov.vFov → f'.vFov ≤ 180) := by
  unfold updateFOVFromPolar
  simp only []
  generalize maxima.foldl fovExtremes (9999, -9999, 9999, -9999) = acc
  obtain ⟨a, b, c, d⟩ := acc
  simp only []
  have hh : min (b - a) (360 - b + a) ≤ 180 := by
    rcases le_total (b - a) 180 with h | h
    · exact (min_le_left _ _).trans h
    · exact (min_le_right _ _).trans (by linarith)
  have hv : min (d - c) (360 - d + c) ≤ 180 := by
    rcases le_total (d - c) 180 with h | h
    · exact (min_le_left _ _).trans h
    · exact (min_le_right _ _).trans (by linarith)
  generalize min (b - a) (360 - b + a) = H at *
  generalize min (d - c) (360 - d + c) = V at *
  by_cases c1 : H > fov.hFov
  · by_cases c2 : V > fov.vFov
    · simp only [if_pos c1, if_pos c2]
      exact ⟨c1.le, c2.le, fun h => absurd h (ne_of_gt c1), fun h => absurd h (ne_of_gt c2),
        fun _ => hh, fun _ => hv⟩
    · simp only [if_pos c1, if_neg c2]
      exact ⟨c1.le, le_refl _, fun h => absurd h (ne_of_gt c1), fun _ => trivial,
        fun _ => hh, fun h => absurd rfl h⟩
  · by_cases c2 : V > fov.vFov
    · simp only [if_neg c1, if_pos c2]
      exact ⟨le_refl _, c2.le, fun _ => trivial, fun h => absurd h (ne_of_gt c2),
        fun h => absurd rfl h, fun _ => hv⟩
    · simp only [if_neg c1, if_neg c2]
      exact ⟨le_refl _, le_refl _, fun _ => trivial, fun _ => trivial,
        fun h => absurd rfl h, fun h => absurd rfl h⟩

/-- C14 (history): over any sequence of clouds the opening angles never shrink. -/
theorem C14_history_monotone (fov : FOV K) (clouds : List (List (PolarPoint K))) :
    fov.hFov ≤ (clouds.foldl updateFOVFromPolar fov).hFov ∧
    fov.vFov ≤ (clouds.foldl updateFOVFromPolar fov).vFov := by
  induction clouds generalizing fov with
  | nil => exact ⟨le_refl _, le_refl _⟩
  | cons c cs ih =>
    have h1 := C14_update_monotone fov c
    have h2 := ih (updateFOVFromPolar fov c)
    exact ⟨h1.1.trans h2.1, h1.2.1.trans h2.2⟩

/-- C14: a cloud without extreme points changes nothing. -/
theorem C14_empty (fov : FOV K) (hh : 0 ≤ fov.hFov) (hv : 0 ≤ fov.vFov) :
    updateFOVFromPolar fov [] = fov := by
  unfold updateFOVFromPolar
  simp only [List.foldl_nil]
  have e1 : min ((-9999 : K) - 9999) (360 - -9999 + 9999) = -19998 := by norm_num
  simp only [e1, if_neg (by linarith : ¬ ((-19998 : K) > fov.hFov)),
    if_neg (by linarith : ¬ ((-19998 : K) > fov.vFov))]

/-- Bounds on the extremes found by the scan (helper). -/
theorem fovExtremes_bounds (maxima : List (PolarPoint K)) (acc : K × K × K × K) :
    let r := maxima.foldl fovExtremes acc
    (r.1 ≤ acc.1 ∧ acc.2.1 ≤ r.2.1 ∧ r.2.2.1 ≤ acc.2.2.1 ∧ acc.2.2.2 ≤ r.2.2.2) ∧
    ∀ q ∈ maxima, r.1 ≤ q.z + 180 ∧ q.z + 180 ≤ r.2.1 ∧ r.2.2.1 ≤ q.e + 90 ∧ q.e + 90 ≤ r.2.2.2 := by
  induction maxima generalizing acc with
  | nil => simp
  | cons q qs ih =>
    obtain ⟨⟨i1, i2, i3, i4⟩, i5⟩ := ih (fovExtremes acc q)
    simp only [List.foldl_cons]
    simp only [fovExtremes] at i1 i2 i3 i4
    obtain ⟨j1, j1'⟩ := le_min_iff.mp i1
    obtain ⟨j2, j2'⟩ := max_le_iff.mp i2
    obtain ⟨j3, j3'⟩ := le_min_iff.mp i3
    obtain ⟨j4, j4'⟩ := max_le_iff.mp i4
    refine ⟨⟨j1', j2', j3', j4'⟩, ?_⟩
    intro q' hq'
    rcases List.mem_cons.mp hq' with rfl | h
    · exact ⟨j1, j2, j3, j4⟩
    · exact i5 q' h

/-- C14 (coverage): when a vertical update happens, the new vertical field of view contains the
elevations of all extreme points; when a horizontal update happens and the extreme points span at
most 180°, every extreme azimuth is within half the new opening angle of the new axis (going around
the circle).  No update is missed and none is too large: after the call the opening angles are at
least the distance of any two extreme points, and a changed opening angle is the distance of two of
them. -/
theorem C14_update_covers (fov : FOV K) (maxima : List (PolarPoint K))
    (hh0 : 0 ≤ fov.hFov) (hv0 : 0 ≤ fov.vFov)
    (he : ∀ q ∈ maxima, -90 ≤ q.e ∧ q.e ≤ 90)
    (hspan : ∀ q ∈ maxima, ∀ q' ∈ maxima, q.z - q'.z ≤ 180)
    (hz : ∀ q ∈ maxima, -180 ≤ q.z ∧ q.z < 180) :
    let f' := updateFOVFromPolar fov maxima
    (f'.vFov ≠ fov.vFov → ∀ q ∈ maxima, |q.e - f'.pitch| ≤ f'.vFov / 2) ∧
    (f'.hFov ≠ fov.hFov → ∀ q ∈ maxima, WithinHalfOpening f' q.z) ∧
    (∀ q ∈ maxima, ∀ q' ∈ maxima, q.e - q'.e ≤ f'.vFov ∧ q.z - q'.z ≤ f'.hFov) ∧
    (f'.vFov ≠ fov.vFov → ∃ q ∈ maxima, ∃ q' ∈ maxima, f'.vFov = q.e - q'.e) ∧
    (f'.hFov ≠ fov.hFov → ∃ q ∈ maxima, ∃ q' ∈ maxima, f'.hFov = q.z - q'.z) := by
  obtain ⟨_, hb⟩ := fovExtremes_bounds maxima ((9999 : K), (-9999 : K), (9999 : K), (-9999 : K))
  -- the extremes are attained
  have attained : ∀ (l : List (PolarPoint K)), l ≠ [] →
      (∀ q ∈ l, -180 ≤ q.z ∧ q.z < 180 ∧ -90 ≤ q.e ∧ q.e ≤ 90) →
      ∀ acc : K × K × K × K,
      ((∃ q ∈ l, (l.foldl fovExtremes acc).1 = q.z + 180) ∨ (l.foldl fovExtremes acc).1 = acc.1) ∧
      ((∃ q ∈ l, (l.foldl fovExtremes acc).2.1 = q.z + 180) ∨ (l.foldl fovExtremes acc).2.1 = acc.2.1) ∧
      ((∃ q ∈ l, (l.foldl fovExtremes acc).2.2.1 = q.e + 90) ∨ (l.foldl fovExtremes acc).2.2.1 = acc.2.2.1) ∧
      ((∃ q ∈ l, (l.foldl fovExtremes acc).2.2.2 = q.e + 90) ∨
        (l.foldl fovExtremes acc).2.2.2 = acc.2.2.2) := by
    intro l
    induction l with
    | nil => intro h; exact absurd rfl h
    | cons q qs ih =>
      intro _ hr acc
      have hall : ∀ acc : K × K × K × K,
        ((∃ q ∈ qs, (qs.foldl fovExtremes acc).1 = q.z + 180) ∨ (qs.foldl fovExtremes acc).1 = acc.1) ∧
        ((∃ q ∈ qs, (qs.foldl fovExtremes acc).2.1 = q.z + 180) ∨ (qs.foldl fovExtremes acc).2.1 = acc.2.1) ∧
        ((∃ q ∈ qs, (qs.foldl fovExtremes acc).2.2.1 = q.e + 90) ∨ (qs.foldl fovExtremes acc).2.2.1 = acc.2.2.1) ∧
        ((∃ q ∈ qs, (qs.foldl fovExtremes acc).2.2.2 = q.e + 90) ∨
          (qs.foldl fovExtremes acc).2.2.2 = acc.2.2.2) := by
        intro acc
        by_cases hqs : qs = []
        · subst hqs; exact ⟨Or.inr rfl, Or.inr rfl, Or.inr rfl, Or.inr rfl⟩
        · exact ih hqs (fun q hq => hr q (by simp [hq])) acc
      obtain ⟨h1, h2, h3, h4⟩ := hall (fovExtremes acc q)
      simp only [List.foldl_cons]
      refine ⟨?_, ?_, ?_, ?_⟩
      · rcases h1 with ⟨q', hq', e⟩ | e
        · exact Or.inl ⟨q', by simp [hq'], e⟩
        · rw [e]; simp only [fovExtremes]
          rcases min_choice (q.z + 180) acc.1 with h | h
          · exact Or.inl ⟨q, by simp, h⟩
          · exact Or.inr h
      · rcases h2 with ⟨q', hq', e⟩ | e
        · exact Or.inl ⟨q', by simp [hq'], e⟩
        · rw [e]; simp only [fovExtremes]
          rcases max_choice (q.z + 180) acc.2.1 with h | h
          · exact Or.inl ⟨q, by simp, h⟩
          · exact Or.inr h
      · rcases h3 with ⟨q', hq', e⟩ | e
        · exact Or.inl ⟨q', by simp [hq'], e⟩
        · rw [e]; simp only [fovExtremes]
          rcases min_choice (q.e + 90) acc.2.2.1 with h | h
          · exact Or.inl ⟨q, by simp, h⟩
          · exact Or.inr h
      · rcases h4 with ⟨q', hq', e⟩ | e
        · exact Or.inl ⟨q', by simp [hq'], e⟩
        · rw [e]; simp only [fovExtremes]
          rcases max_choice (q.e + 90) acc.2.2.2 with h | h
          · exact Or.inl ⟨q, by simp, h⟩
          · exact Or.inr h
  intro f'
  by_cases hne : maxima = []
  · subst hne
    refine ⟨fun _ q hq => absurd hq (by simp), fun _ q hq => absurd hq (by simp),
      fun q hq => absurd hq (by simp), fun h => ?_, fun h => ?_⟩
    · exact absurd (by
        have : f' = updateFOVFromPolar fov [] := rfl
        rw [this, C14_empty fov hh0 hv0]) h
    · exact absurd (by
        have : f' = updateFOVFromPolar fov [] := rfl
        rw [this, C14_empty fov hh0 hv0]) h
  obtain ⟨q0, hq0⟩ := List.exists_mem_of_ne_nil maxima hne
  obtain ⟨a1, a2, a3, a4⟩ := attained maxima hne
    (fun q hq => ⟨(hz q hq).1, (hz q hq).2, (he q hq).1, (he q hq).2⟩)
    ((9999 : K), (-9999 : K), (9999 : K), (-9999 : K))
  have hq0b := hb q0 hq0
  have z0 := hz q0 hq0
  have e0 := he q0 hq0
  have hf' : f' = updateFOVFromPolar fov maxima := rfl
  revert hf' hb hq0b a1 a2 a3 a4
  unfold updateFOVFromPolar
  generalize maxima.foldl fovExtremes ((9999 : K), (-9999 : K), (9999 : K), (-9999 : K)) = acc
  obtain ⟨hmin, hmax, vmin, vmax⟩ := acc
  simp only []
  intro hb a1 a2 a3 a4 hq0b hf'
  -- spans
  have hspan' : hmax - hmin ≤ 180 := by
    rcases a1 with ⟨q1, m1, e1⟩ | e1
    · rcases a2 with ⟨q2, m2, e2⟩ | e2
      · have := hspan q2 m2 q1 m1; linarith
      · linarith
    · linarith
  have vspan' : vmax - vmin ≤ 180 := by
    rcases a3 with ⟨q1, m1, e1⟩ | e1
    · rcases a4 with ⟨q2, m2, e2⟩ | e2
      · have h1 := he q1 m1; have h2 := he q2 m2; linarith
      · linarith
    · linarith
  have mh : min (hmax - hmin) (360 - hmax + hmin) = hmax - hmin := min_eq_left (by linarith)
  have mv : min (vmax - vmin) (360 - vmax + vmin) = vmax - vmin := min_eq_left (by linarith)
  rw [mh, mv] at hf'
  simp only [ge_iff_le, le_refl, if_true] at hf'
  have attH : ∃ q ∈ maxima, ∃ q' ∈ maxima, hmax - hmin = q.z - q'.z := by
    rcases a1 with ⟨q1, m1, e1⟩ | e1
    · rcases a2 with ⟨q2, m2, e2⟩ | e2
      · exact ⟨q2, m2, q1, m1, by linarith⟩
      · linarith
    · linarith
  have attV : ∃ q ∈ maxima, ∃ q' ∈ maxima, vmax - vmin = q.e - q'.e := by
    rcases a3 with ⟨q1, m1, e1⟩ | e1
    · rcases a4 with ⟨q2, m2, e2⟩ | e2
      · exact ⟨q2, m2, q1, m1, by linarith⟩
      · linarith
    · linarith
  refine ⟨?_, ?_, ?_, ?_, ?_⟩
  rotate_left 2
  · intro q hq q' hq'
    obtain ⟨b1, b2, b3, b4⟩ := hb q hq
    obtain ⟨b1', b2', b3', b4'⟩ := hb q' hq'
    split_ifs at hf' with c1 c2 c2 <;> rw [hf'] <;> (try simp only []) <;> constructor <;> linarith
  · intro hneq
    split_ifs at hf' with c1 c2 c2
    · rw [hf']; exact attV
    · rw [hf'] at hneq; exact absurd rfl hneq
    · rw [hf']; exact attV
    · rw [hf'] at hneq; exact absurd rfl hneq
  · intro hneq
    split_ifs at hf' with c1 c2 c2
    · rw [hf']; exact attH
    · rw [hf']; exact attH
    · rw [hf'] at hneq; exact absurd rfl hneq
    · rw [hf'] at hneq; exact absurd rfl hneq
  · intro hneq q hq
    obtain ⟨_, _, b3, b4⟩ := hb q hq
    split_ifs at hf' with c1 c2 c2
    · rw [hf']; simp only []; rw [abs_le]; constructor <;> linarith
    · rw [hf'] at hneq; exact absurd rfl hneq
    · rw [hf']; simp only []; rw [abs_le]; constructor <;> linarith
    · rw [hf'] at hneq; exact absurd rfl hneq
  · intro hneq q hq
    obtain ⟨b1, b2, _, _⟩ := hb q hq
    obtain ⟨⟨_, _, k, hk⟩, _⟩ := C01_wrap180_canonical ((hmax + hmin) / 2 - 180)
    have goal : ∀ (pt v : K), WithinHalfOpening
        (⟨wrap180 ((hmax + hmin) / 2 - 180), pt, hmax - hmin, v⟩ : FOV K) q.z := by
      intro pt v
      refine ⟨q.z - ((hmax + hmin) / 2 - 180), ?_, k, ?_⟩
      · simp only []; rw [abs_le]; constructor <;> linarith
      · simp only []; linarith
    split_ifs at hf' with c1 c2 c2
    · rw [hf']; exact goal _ _
    · rw [hf']; exact goal _ _
    · rw [hf'] at hneq; exact absurd rfl hneq
    · rw [hf'] at hneq; exact absurd rfl hneq

-- a cloud meeting the hypotheses that does enlarge an empty field of view
example : (updateFOVFromPolar (⟨0, 0, 0, 0⟩ : FOV ℚ) [⟨-10, -20, 1⟩, ⟨10, 40, 1⟩]).hFov = 60 := by
  norm_num [updateFOVFromPolar, fovExtremes]

/-- C14 for clouds behind the vehicle (azimuths on both sides of ±180°): the new opening angle is the angle between the two extreme points that are *closest* to the
backward direction, and the new axis is the middle of these two, going through ±180°: these two are covered, but every extreme point that is farther from the backward
direction is not.  So "a new field of view covers the points it was made from" is false for a camera that looks backwards. -/
theorem C14_update_behind_violated (fov : FOV K) (maxima : List (PolarPoint K)) (hh0 : 0 ≤ fov.hFov) (hz : ∀ q ∈ maxima, -180 ≤ q.z ∧ q.z < 180)
    (q1 q2 : PolarPoint K) (m1 : q1 ∈ maxima) (m2 : q2 ∈ maxima) (hmax : ∀ q ∈ maxima, q.z ≤ q1.z) (hmin : ∀ q ∈ maxima, q2.z ≤ q.z) (hbig : 180 < q1.z - q2.z) :
    let f' := updateFOVFromPolar fov maxima
    f'.hFov = max fov.hFov (360 - (q1.z - q2.z)) ∧
    (fov.hFov < 360 - (q1.z - q2.z) → WithinHalfOpening f' q1.z ∧ WithinHalfOpening f' q2.z ∧
      ∀ q ∈ maxima, q2.z < q.z → q.z < q1.z → ¬ WithinHalfOpening f' q.z) := by
  intro f'
  have key : (maxima.foldl fovExtremes ((9999 : K), (-9999 : K), (9999 : K), (-9999 : K))).1 = q2.z + 180 ∧
      (maxima.foldl fovExtremes ((9999 : K), (-9999 : K), (9999 : K), (-9999 : K))).2.1 = q1.z + 180 := by
    have gen : ∀ (l : List (PolarPoint K)) (acc : K × K × K × K),
        (∀ x : K, x ≤ acc.1 → (∀ q ∈ l, x ≤ q.z + 180) → x ≤ (l.foldl fovExtremes acc).1) ∧
        (∀ x : K, acc.2.1 ≤ x → (∀ q ∈ l, q.z + 180 ≤ x) → (l.foldl fovExtremes acc).2.1 ≤ x) := by
      intro l
      induction l with
      | nil => intro acc; exact ⟨fun x hx _ => hx, fun x hx _ => hx⟩
      | cons a l ih =>
        intro acc
        rw [List.foldl_cons]
        obtain ⟨i1, i2⟩ := ih (fovExtremes acc a)
        refine ⟨fun x hx hl => i1 x (le_min (hl a (by simp)) hx) fun q hq => hl q (List.mem_cons_of_mem _ hq),
          fun x hx hl => i2 x (max_le (hl a (by simp)) hx) fun q hq => hl q (List.mem_cons_of_mem _ hq)⟩
    obtain ⟨_, hb⟩ := fovExtremes_bounds maxima ((9999 : K), (-9999 : K), (9999 : K), (-9999 : K))
    obtain ⟨g1, g2⟩ := gen maxima ((9999 : K), (-9999 : K), (9999 : K), (-9999 : K))
    have z1 := hz q1 m1
    have z2 := hz q2 m2
    refine ⟨le_antisymm (hb q2 m2).1 (g1 _ (by dsimp only; linarith) fun q hq => by have := hmin q hq; linarith),
      le_antisymm (g2 _ (by dsimp only; linarith) fun q hq => by have := hmax q hq; linarith) (hb q1 m1).2.1⟩
  have hf' : f' = updateFOVFromPolar fov maxima := rfl
  revert hf' key
  unfold updateFOVFromPolar
  generalize maxima.foldl fovExtremes ((9999 : K), (-9999 : K), (9999 : K), (-9999 : K)) = acc
  obtain ⟨hmin', hmax', vmin, vmax⟩ := acc
  simp only []
  rintro ⟨rfl, rfl⟩ hf'
  have e : min (q1.z + 180 - (q2.z + 180)) (360 - (q1.z + 180) + (q2.z + 180)) = 360 - (q1.z - q2.z) := by
    rw [min_eq_right (by linarith)]; ring
  have e' : ¬ (360 - (q1.z - q2.z) ≥ q1.z + 180 - (q2.z + 180)) := by
    intro h; linarith
  rw [e] at hf'
  simp only [if_neg e'] at hf'
  have ey : (q1.z + 180 + (q2.z + 180)) / 2 = (q1.z + q2.z) / 2 + 180 := by ring
  rw [ey] at hf'
  obtain ⟨⟨_, _, k, hk⟩, _⟩ := C01_wrap180_canonical ((q1.z + q2.z) / 2 + 180)
  by_cases c : fov.hFov < 360 - (q1.z - q2.z)
  · have hH : f'.hFov = 360 - (q1.z - q2.z) ∧ f'.yaw = wrap180 ((q1.z + q2.z) / 2 + 180) := by
      rw [hf', if_pos c]
      split_ifs <;> exact ⟨rfl, rfl⟩
    obtain ⟨hH, hY⟩ := hH
    refine ⟨by rw [hH, max_eq_right c.le], fun _ => ⟨?_, ?_, ?_⟩⟩
    · refine ⟨-(360 - (q1.z - q2.z)) / 2, ?_, k, ?_⟩
      · rw [hH, abs_le]; constructor <;> linarith
      · rw [hY]; linarith
    · refine ⟨(360 - (q1.z - q2.z)) / 2, ?_, k - 1, ?_⟩
      · rw [hH, abs_le]; constructor <;> linarith
      · rw [hY]; push_cast; linarith
    · rintro q hq h1 h2 ⟨d, hd, n, hn⟩
      rw [hH, abs_le] at hd
      rw [hY] at hn
      -- q.z lies strictly between q2.z and q1.z, and the covered azimuths are those from q1.z to q2.z + 360
      have hm : q.z = (q1.z + q2.z) / 2 + 180 + d + 360 * ((n - k : ℤ) : K) := by push_cast; linarith
      have b1 : q1.z ≤ (q1.z + q2.z) / 2 + 180 + d := by linarith [hd.1]
      have b2 : (q1.z + q2.z) / 2 + 180 + d ≤ q2.z + 360 := by linarith [hd.2]
      rcases lt_trichotomy (n - k) (-1) with hl | hl | hl
      · have : ((n - k : ℤ) : K) ≤ -2 := by exact_mod_cast (by omega : n - k ≤ -2)
        have := hz q1 m1; have := hz q2 m2
        linarith
      · rw [hl] at hm; push_cast at hm; linarith
      · have : (0 : K) ≤ ((n - k : ℤ) : K) := by exact_mod_cast (by omega : 0 ≤ n - k)
        linarith
  · have hH : f'.hFov = fov.hFov := by
      rw [hf', if_neg c]
      split_ifs <;> rfl
    exact ⟨by rw [hH, max_eq_left (not_lt.1 c)], fun h => absurd h c⟩

-- four extreme points of a camera that looks backwards and sees 60°: a field of view of 10° is recorded
example : (updateFOVFromPolar (⟨0, 0, 0, 0⟩ : FOV ℚ) [⟨0, 150, 1⟩, ⟨10, 175, 1⟩, ⟨-10, -175, 1⟩, ⟨0, -150, 1⟩]).hFov = 10 := by
  norm_num [updateFOVFromPolar, fovExtremes]

end generic

/-- C14 for the API: over any sequence of clouds of extreme points (in Cartesian camera
coordinates) the opening angles never shrink. -/
theorem C14_updateFOVFromMaxima_history (fov : FOV ℝ) (clouds : List (List (V3 ℝ))) :
    fov.hFov ≤ (clouds.foldl updateFOVFromMaxima fov).hFov ∧
    fov.vFov ≤ (clouds.foldl updateFOVFromMaxima fov).vFov := by
  have h := C14_history_monotone fov
    (clouds.map fun c => c.map fun p => cartesianToPolarFCU p ⟨0, 0, 0⟩)
  rw [List.foldl_map] at h
  exact h

/-- C14 for the API: a horizontal update covers all extreme points when their azimuths span at most
180°, a vertical update always covers them; no update is missed (the opening angles are at least the
distance of any two extreme points afterwards) and a changed opening angle is such a distance. -/
theorem C14_updateFOVFromMaxima_covers (fov : FOV ℝ) (maxima : List (V3 ℝ))
    (hh0 : 0 ≤ fov.hFov) (hv0 : 0 ≤ fov.vFov)
    (hspan : ∀ p ∈ maxima, ∀ q ∈ maxima,
      (cartesianToPolarFCU p ⟨0, 0, 0⟩).z - (cartesianToPolarFCU q ⟨0, 0, 0⟩).z ≤ 180) :
    let f' := updateFOVFromMaxima fov maxima
    (f'.vFov ≠ fov.vFov → ∀ p ∈ maxima,
      |(cartesianToPolarFCU p ⟨0, 0, 0⟩).e - f'.pitch| ≤ f'.vFov / 2) ∧
    (f'.hFov ≠ fov.hFov → ∀ p ∈ maxima,
      WithinHalfOpening f' (cartesianToPolarFCU p ⟨0, 0, 0⟩).z) ∧
    (∀ p ∈ maxima, ∀ q ∈ maxima,
      (cartesianToPolarFCU p ⟨0, 0, 0⟩).e - (cartesianToPolarFCU q ⟨0, 0, 0⟩).e ≤ f'.vFov ∧
      (cartesianToPolarFCU p ⟨0, 0, 0⟩).z - (cartesianToPolarFCU q ⟨0, 0, 0⟩).z ≤ f'.hFov) ∧
    (f'.vFov ≠ fov.vFov → ∃ p ∈ maxima, ∃ q ∈ maxima,
      f'.vFov = (cartesianToPolarFCU p ⟨0, 0, 0⟩).e - (cartesianToPolarFCU q ⟨0, 0, 0⟩).e) ∧
    (f'.hFov ≠ fov.hFov → ∃ p ∈ maxima, ∃ q ∈ maxima,
      f'.hFov = (cartesianToPolarFCU p ⟨0, 0, 0⟩).z - (cartesianToPolarFCU q ⟨0, 0, 0⟩).z) := by
  have hr : ∀ p : V3 ℝ, (-90 ≤ (cartesianToPolarFCU p ⟨0, 0, 0⟩).e ∧
      (cartesianToPolarFCU p ⟨0, 0, 0⟩).e ≤ 90) ∧
      (-180 ≤ (cartesianToPolarFCU p ⟨0, 0, 0⟩).z ∧ (cartesianToPolarFCU p ⟨0, 0, 0⟩).z < 180) := by
    intro p
    have := C03_wrapPolar_range
      (⟨-(cartesianToPolarHistogram p ⟨0, 0, 0⟩).e, -(cartesianToPolarHistogram p ⟨0, 0, 0⟩).z + 90,
        (cartesianToPolarHistogram p ⟨0, 0, 0⟩).r⟩ : PolarPoint ℝ)
    exact ⟨this.1, this.2.1⟩
  obtain ⟨h1, h2, h3, h4, h5⟩ := C14_update_covers fov
    (maxima.map fun p => cartesianToPolarFCU p ⟨0, 0, 0⟩) hh0 hv0
    (by intro q hq; obtain ⟨p, _, rfl⟩ := List.mem_map.mp hq; exact (hr p).1)
    (by
      intro q hq q' hq'
      obtain ⟨p, hp, rfl⟩ := List.mem_map.mp hq
      obtain ⟨p', hp', rfl⟩ := List.mem_map.mp hq'
      exact hspan p hp p' hp')
    (by intro q hq; obtain ⟨p, _, rfl⟩ := List.mem_map.mp hq; exact (hr p).2)
  refine ⟨fun h p hp => h1 h _ (List.mem_map_of_mem hp), fun h p hp => h2 h _ (List.mem_map_of_mem hp),
    fun p hp q hq => h3 _ (List.mem_map_of_mem hp) _ (List.mem_map_of_mem hq), fun h => ?_,
    fun h => ?_⟩
  · obtain ⟨a, ha, b, hb, e⟩ := h4 h
    obtain ⟨p, hp, rfl⟩ := List.mem_map.mp ha
    obtain ⟨q, hq, rfl⟩ := List.mem_map.mp hb
    exact ⟨p, hp, q, hq, e⟩
  · obtain ⟨a, ha, b, hb, e⟩ := h5 h
    obtain ⟨p, hp, rfl⟩ := List.mem_map.mp ha
    obtain ⟨q, hq, rfl⟩ := List.mem_map.mp hb
    exact ⟨p, hp, q, hq, e⟩

-- the span hypothesis holds for any single point
example (p : V3 ℝ) : ∀ a ∈ [p], ∀ b ∈ [p],
    (cartesianToPolarFCU a ⟨0, 0, 0⟩).z - (cartesianToPolarFCU b ⟨0, 0, 0⟩).z ≤ 180 := by
  intro a ha b hb
  simp only [List.mem_singleton] at ha hb
  subst ha; subst hb; norm_num

/-- C63: the histogram-column test does not depend on the vehicle position: it is the two-axis
test of the two borders of the column (azimuth `6·idx - 180` and `6·idx - 174` measured clockwise
from north), expressed as a body-frame yaw counter-clockwise from forward, at 3° above the
horizon. -/
theorem C63_histogram_column_inside (fovs : List (FOV ℝ)) (idx : ℤ) (h0 : 0 ≤ idx) (h1 : idx < 60)
    (pos : V3 ℝ) (yaw : ℝ) :
    histogramIndexYawInsideFOV fovs idx pos yaw = true ↔
      pointInsideFOV fovs ⟨-3, wrap180 (90 - (6 * idx - 180) - yaw), 1⟩ = true ∨
      pointInsideFOV fovs ⟨-3, wrap180 (90 - (6 * idx - 174) - yaw), 1⟩ = true := by
  have hlo : (0 : ℝ) ≤ idx := by exact_mod_cast h0
  have hhi : (idx : ℝ) ≤ 59 := by exact_mod_cast (by omega : idx ≤ 59)
  have hp : (histogramIndexToPolar ((GRID_LENGTH_E / 2 : ℕ) : ℤ) idx ALPHA_RES 1 : PolarPoint ℝ) =
      ⟨3, 6 * idx - 177, 1⟩ := by
    unfold histogramIndexToPolar GRID_LENGTH_E ALPHA_RES
    ext
    · norm_num
    · push_cast; ring
    · rfl
  have hrt : cartesianToPolarHistogram (polarHistogramToCartesian ⟨3, 6 * idx - 177, 1⟩ pos) pos =
      ⟨3, 6 * idx - 177, 1⟩ :=
    C05_polar_cartesian_round_trip _ pos (by norm_num) (by norm_num) (by norm_num)
      (by simp only []; linarith) (by simp only []; linarith)
  have wrapE : ∀ a : ℝ, wrapPolar (⟨-3, a, 1⟩ : PolarPoint ℝ) = ⟨-3, wrap180 a, 1⟩ := by
    intro a
    have h3 : wrap180 (-3 : ℝ) = -3 :=
      ((C01_wrap180_canonical (-3 : ℝ)).2 _ (by norm_num) (by norm_num) ⟨0, by simp⟩).symm
    rw [wrapPolar_cases]
    simp only [h3]
    rw [if_neg (by norm_num), if_neg (by norm_num)]
  have hadd : ∀ a b : ℝ, wrap180 (wrap180 a + b) = wrap180 (a + b) := by
    intro a b
    obtain ⟨⟨_, _, n, hn⟩, _⟩ := C01_wrap180_canonical a
    have : a + b = wrap180 a + b + 360 * n := by linarith
    rw [this, (C01_wrap180_turns _ n).2]
  have e1 : ∀ x : ℝ, wrap180 (-(6 * (idx : ℝ) - 177) + 90) - yaw + x =
      wrap180 (-(6 * (idx : ℝ) - 177) + 90) + (x - yaw) := fun x => by ring
  have e2 : ∀ x : ℝ, wrap180 (-(6 * (idx : ℝ) - 177) + 90) - yaw - x =
      wrap180 (-(6 * (idx : ℝ) - 177) + 90) + (-x - yaw) := fun x => by ring
  unfold histogramIndexYawInsideFOV cartesianToPolarFCU
  simp only [hp, hrt, wrapE, e1, e2, hadd, Bool.or_eq_true]
  have a1 : -(6 * (idx : ℝ) - 177) + 90 + ((ALPHA_RES : ℝ) / 2 - yaw) = 90 - (6 * idx - 180) - yaw := by
    norm_num [ALPHA_RES]; ring
  have a2 : -(6 * (idx : ℝ) - 177) + 90 + (-((ALPHA_RES : ℝ) / 2) - yaw) = 90 - (6 * idx - 174) - yaw := by
    norm_num [ALPHA_RES]; ring
  rw [a1, a2]

end Avoidance
