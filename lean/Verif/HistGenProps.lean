import Verif.HistGen
import Verif.PolarProps
import Verif.HistogramProps

/-!
# C25 (obstacle histogram), C26 (elevation compression)
-/

namespace Avoidance
open Histogram

/-! ## Specification -/

/-- The cloud points whose direction from `position` falls into cell (elevation `e`, azimuth `z`)
of the 6° grid. -/
noncomputable def pointsInCell (cloud : List (AgedPoint ℝ)) (position : V3 ℝ) (e z : ℕ) :
    List (V3 ℝ) :=
  (cloud.map (·.p)).filter (fun p =>
    polarToHistogramIndex (cartesianToPolarHistogram p position) 6 = ((z : ℤ), (e : ℤ)))

/-- Euclidean distance. -/
noncomputable def distanceTo (position p : V3 ℝ) : ℝ := Real.sqrt (distSq p position)

/-- The cell of row `e` is an obstacle to be reported: positive distance and less than 1 m above
or below the vehicle. -/
noncomputable def Reportable (input : Histogram ℝ) (e z : ℕ) : Prop :=
  0 < input.dist e z ∧ input.dist e z * |Real.sin (((e * 6 + 3 - 90 : ℤ) : ℝ) * degToRad)| < 1

/-! ## Lemmas -/

/-- Array update at one cell. -/
def setAt (d : ℕ → ℕ → ℝ) (e z : ℕ) (v : ℝ) (i j : ℕ) : ℝ := if i = e ∧ j = z then v else d i j

theorem getDist_nat {h : Histogram ℝ} {e z : ℕ} (he : e < h.eDim) (hz : z < h.zDim) :
    h.getDist e z = some (h.dist e z) := by
  unfold Histogram.getDist
  rw [wrapAxis_eq_emod _ _ (by omega), wrapAxis_eq_emod _ _ (by omega),
    Int.emod_eq_of_lt (by omega) (by omega), Int.emod_eq_of_lt (by omega) (by omega)]
  unfold Histogram.at?
  rw [if_pos (by omega)]; simp

theorem setDist_nat {h : Histogram ℝ} {e z : ℕ} (he : e < h.eDim) (hz : z < h.zDim) (v : ℝ) :
    h.setDist e z v =
      some ⟨h.res, h.zDim, h.eDim, setAt h.dist e z v⟩ := by
  unfold Histogram.setDist
  rw [if_pos (by omega)]; simp only [Int.toNat_natCast]; rfl

theorem mem_cellList {es : List ℕ} {zn : ℕ} {c : ℕ × ℕ} :
    c ∈ cellList es zn ↔ c.1 ∈ es ∧ c.2 < zn := by
  obtain ⟨a, b⟩ := c
  simp [cellList]

theorem nodup_cellList {es : List ℕ} (h : es.Nodup) (zn : ℕ) : (cellList es zn).Nodup := by
  unfold cellList
  induction es with
  | nil => simp
  | cons a es ih =>
    obtain ⟨h1, h2⟩ := List.nodup_cons.1 h
    rw [List.flatMap_cons, List.nodup_append]
    refine ⟨?_, ih h2, ?_⟩
    · exact List.Nodup.map (fun x y hxy => by simpa using hxy) List.nodup_range
    · intro x hx y hy hxy
      subst hxy
      obtain ⟨z, -, rfl⟩ := List.mem_map.1 hx
      rw [List.mem_flatMap] at hy
      obtain ⟨e, he, hz⟩ := hy
      obtain ⟨w, -, hw⟩ := List.mem_map.1 hz
      simp only [Prod.mk.injEq] at hw
      exact h1 (hw.1 ▸ he)

/-- Cell contents after normalising the cells of a list. -/
noncomputable def normDist (counter : ℤ × ℤ → ℕ) (cells : List (ℕ × ℕ)) (d : ℕ → ℕ → ℝ) (i j : ℕ) : ℝ :=
  if (i, j) ∈ cells then
    (if counter ((i : ℤ), (j : ℤ)) > 0 then d i j / (counter ((i : ℤ), (j : ℤ)) : ℝ) else 0)
  else d i j

/-- The normalising loop. -/
theorem normalise_loop (counter : ℤ × ℤ → ℕ) (cells : List (ℕ × ℕ)) (hn : cells.Nodup)
    (h : Histogram ℝ) (hb : ∀ c ∈ cells, c.1 < h.eDim ∧ c.2 < h.zDim) :
    loopM (normaliseCell counter) h cells =
      some ⟨h.res, h.zDim, h.eDim, normDist counter cells h.dist⟩ := by
  induction cells generalizing h with
  | nil => simp only [loopM]; congr 2
  | cons c cells ih =>
    obtain ⟨h1, h2⟩ := List.nodup_cons.1 hn
    obtain ⟨hc1, hc2⟩ := hb c (by simp)
    have step : normaliseCell counter h c = some ⟨h.res, h.zDim, h.eDim,
        setAt h.dist c.1 c.2 (if counter ((c.1 : ℤ), (c.2 : ℤ)) > 0 then
            h.dist c.1 c.2 / (counter ((c.1 : ℤ), (c.2 : ℤ)) : ℝ) else 0)⟩ := by
      unfold normaliseCell
      split_ifs with hp
      · rw [getDist_nat hc1 hc2, Option.bind_some, setDist_nat hc1 hc2]
      · rw [setDist_nat hc1 hc2]
    simp only [loopM, step, Option.bind_some]
    refine (ih h2 _ ?_).trans ?_
    · intro c' hc'; exact hb c' (by simp [hc'])
    congr 2
    funext i j
    unfold normDist setAt
    by_cases e : (i, j) = c
    · subst e
      simp [h1]
    · have e' : ¬ (i = c.1 ∧ j = c.2) := by
        rintro ⟨rfl, rfl⟩; exact e rfl
      simp [e, e']

theorem distanceTo_eq (position p : V3 ℝ) :
    (cartesianToPolarHistogram p position).r = distanceTo position p := rfl

/-- The accumulating loop. -/
theorem add_loop (position : V3 ℝ) (pts : List (V3 ℝ)) (h : Histogram ℝ)
    (he : h.eDim = 30) (hz : h.zDim = 60) (cnt : ℤ × ℤ → ℕ) :
    ∃ s, loopM (addPoint position) ⟨h, cnt⟩ pts = some s ∧
      s.hist.eDim = 30 ∧ s.hist.zDim = 60 ∧ s.hist.res = h.res ∧
      ∀ e z : ℕ, s.hist.dist e z = h.dist e z +
          ((pts.filter (fun p => polarToHistogramIndex (cartesianToPolarHistogram p position) 6
            = ((z : ℤ), (e : ℤ)))).map (distanceTo position)).sum ∧
        s.counter ((e : ℤ), (z : ℤ)) = cnt ((e : ℤ), (z : ℤ)) +
          (pts.filter (fun p => polarToHistogramIndex (cartesianToPolarHistogram p position) 6
            = ((z : ℤ), (e : ℤ)))).length := by
  induction pts generalizing h cnt with
  | nil => exact ⟨_, rfl, he, hz, rfl, by simp⟩
  | cons p pts ih =>
    obtain ⟨r1, r2, r3, r4⟩ := C04_index_in_range (cartesianToPolarHistogram p position) 6
      (by norm_num) (by norm_num)
    obtain ⟨zi, hzi⟩ := Int.eq_ofNat_of_zero_le r1
    obtain ⟨ei, hei⟩ := Int.eq_ofNat_of_zero_le r3
    have hind : polarToHistogramIndex (cartesianToPolarHistogram p position) 6 = ((zi : ℤ), (ei : ℤ)) :=
      Prod.ext hzi hei
    have hz' : zi < h.zDim := by rw [hz]; rw [hzi] at r2; norm_num at r2; exact_mod_cast r2
    have he' : ei < h.eDim := by rw [he]; rw [hei] at r4; norm_num at r4; exact_mod_cast r4
    have step : addPoint position ⟨h, cnt⟩ p = some
        ⟨⟨h.res, h.zDim, h.eDim, setAt h.dist ei zi (h.dist ei zi + distanceTo position p)⟩,
          fun k => if k = ((ei : ℤ), (zi : ℤ)) then cnt k + 1 else cnt k⟩ := by
      unfold addPoint ALPHA_RES
      simp only [hind]
      rw [getDist_nat he' hz', Option.bind_some, setDist_nat he' hz', Option.map_some]
      rfl
    simp only [loopM, step, Option.bind_some]
    obtain ⟨s, h1, h2, h3, h4, h5⟩ := ih
      ⟨h.res, h.zDim, h.eDim, setAt h.dist ei zi (h.dist ei zi + distanceTo position p)⟩ he hz
      (fun k => if k = ((ei : ℤ), (zi : ℤ)) then cnt k + 1 else cnt k)
    refine ⟨s, h1, h2, h3, h4, ?_⟩
    intro e z
    obtain ⟨e1, e2⟩ := h5 e z
    rw [e1, e2, List.filter_cons]
    unfold setAt
    by_cases hc : e = ei ∧ z = zi
    · obtain ⟨rfl, rfl⟩ := hc
      simp only [hind, decide_true, if_true, List.map_cons, List.sum_cons, List.length_cons, and_self]
      constructor <;> ring
    · have hc' : ¬ ((zi : ℤ), (ei : ℤ)) = ((z : ℤ), (e : ℤ)) := by
        simp only [Prod.mk.injEq, Nat.cast_inj]
        rintro ⟨rfl, rfl⟩; exact hc ⟨rfl, rfl⟩
      have hc'' : ¬ ((e : ℤ), (z : ℤ)) = ((ei : ℤ), (zi : ℤ)) := by
        simp only [Prod.mk.injEq, Nat.cast_inj]
        exact hc
      rw [hind]
      simp [hc, hc', hc'']

/-! ## C25 -/

/-- **C25.** Starting from a freshly constructed 6° histogram, every cell of the result holds the
arithmetic mean of the distances of the cloud points whose direction falls into it, and 0 when
there are none; no access is out of bounds. -/
theorem C25_mean_distance (cloud : List (AgedPoint ℝ)) (position : V3 ℝ) :
    ∃ h', generateNewHistogram (Histogram.new 6) cloud position = some h' ∧
      ∀ e z : ℕ, e < 30 → z < 60 → h'.getDist e z = some (
        if pointsInCell cloud position e z = [] then 0
        else ((pointsInCell cloud position e z).map (distanceTo position)).sum /
          ((pointsInCell cloud position e z).length : ℝ)) := by
  obtain ⟨s, h1, h2, h3, h4, h5⟩ := add_loop position (cloud.map (·.p)) (Histogram.new 6) rfl rfl
    (fun _ => 0)
  unfold generateNewHistogram
  rw [h1, Option.bind_some, normalise_loop _ _ (nodup_cellList List.nodup_range _) _ (by
    intro c hc
    obtain ⟨c1, c2⟩ := mem_cellList.1 hc
    rw [h2, h3]
    exact ⟨by simpa [GRID_LENGTH_E, ALPHA_RES] using c1, by simpa [GRID_LENGTH_Z, ALPHA_RES] using c2⟩)]
  refine ⟨_, rfl, ?_⟩
  intro e z he hz
  rw [getDist_nat (by dsimp only; omega) (by dsimp only; omega)]
  have hmem : (e, z) ∈ cellList (List.range GRID_LENGTH_E) GRID_LENGTH_Z :=
    mem_cellList.2 ⟨by simpa [GRID_LENGTH_E, ALPHA_RES] using he, by simpa [GRID_LENGTH_Z, ALPHA_RES] using hz⟩
  obtain ⟨e1, e2⟩ := h5 e z
  simp only [normDist, if_pos hmem]
  rw [e1, e2]
  have hp : (cloud.map (·.p)).filter (fun p => decide (polarToHistogramIndex
      (cartesianToPolarHistogram p position) 6 = ((z : ℤ), (e : ℤ)))) = pointsInCell cloud position e z := rfl
  rw [hp]
  congr 1
  cases pointsInCell cloud position e z with
  | nil => simp
  | cons a l => simp [Histogram.new]

/-- Consequence: a cell of the new histogram is positive exactly when it contains a cloud point
different from the vehicle's own position. -/
theorem C25_occupied_iff (cloud : List (AgedPoint ℝ)) (position : V3 ℝ) (e z : ℕ) (he : e < 30)
    (hz : z < 60) :
    ∃ h' d, generateNewHistogram (Histogram.new 6) cloud position = some h' ∧
      h'.getDist e z = some d ∧ 0 ≤ d ∧
      (0 < d ↔ ∃ p ∈ pointsInCell cloud position e z, 0 < distanceTo position p) := by
  obtain ⟨h', h1, h2⟩ := C25_mean_distance cloud position
  refine ⟨h', _, h1, h2 e z he hz, ?_, ?_⟩
  · split_ifs
    · exact le_rfl
    · exact div_nonneg (List.sum_nonneg (by
        intro x hx; obtain ⟨p, -, rfl⟩ := List.mem_map.1 hx; exact Real.sqrt_nonneg _)) (by positivity)
  · have key : ∀ l : List (V3 ℝ), 0 < (l.map (distanceTo position)).sum ↔
        ∃ p ∈ l, 0 < distanceTo position p := by
      intro l
      induction l with
      | nil => simp
      | cons a l ih =>
        have ha : 0 ≤ distanceTo position a := Real.sqrt_nonneg _
        have hl : 0 ≤ (l.map (distanceTo position)).sum := List.sum_nonneg (by
          intro x hx; obtain ⟨p, -, rfl⟩ := List.mem_map.1 hx; exact Real.sqrt_nonneg _)
        simp only [List.map_cons, List.sum_cons, List.mem_cons, exists_eq_or_imp]
        rw [← ih]
        constructor
        · intro h; by_contra hc; push Not at hc; linarith
        · rintro (h | h) <;> linarith
    split_ifs with hn
    · simp [hn]
    · have hlen : (0 : ℝ) < ((pointsInCell cloud position e z).length : ℝ) := by
        exact_mod_cast List.length_pos_iff.2 hn
      rw [div_pos_iff_of_pos_right hlen, key]

/-! ## C26 -/

theorem compressRows_eq : compressRows = [13, 14, 15, 16] := by
  have h1 : (polarToHistogramIndex (⟨-1 * 20 / 2, 0, 0⟩ : PolarPoint ℝ) ALPHA_RES).2 = 13 := by
    unfold polarToHistogramIndex
    rw [C03_wrapPolar_fixed _ (by norm_num) (by norm_num) (by norm_num) (by norm_num)]
    have : ⌊(-1 * 20 / 2 : ℝ) / (ALPHA_RES : ℕ) + 90 / (ALPHA_RES : ℕ)⌋ = 13 := by
      rw [Int.floor_eq_iff]; unfold ALPHA_RES; norm_num
    simp only [this]; simp [ALPHA_RES]
  have h2 : (polarToHistogramIndex (⟨20 / 2, 0, 0⟩ : PolarPoint ℝ) ALPHA_RES).2 = 16 := by
    unfold polarToHistogramIndex
    rw [C03_wrapPolar_fixed _ (by norm_num) (by norm_num) (by norm_num) (by norm_num)]
    have : ⌊(20 / 2 : ℝ) / (ALPHA_RES : ℕ) + 90 / (ALPHA_RES : ℕ)⌋ = 16 := by
      rw [Int.floor_eq_iff]; unfold ALPHA_RES; norm_num
    simp only [this]; simp [ALPHA_RES]
  unfold compressRows
  simp only [h1, h2]
  decide

theorem cellHeight_eq (position : V3 ℝ) (e z : ℕ) {d : ℝ} (hd : 0 < d) :
    cellHeight position e z d = d * |Real.sin (((e * 6 + 3 - 90 : ℤ) : ℝ) * degToRad)| := by
  unfold cellHeight polarHistogramToCartesian histogramIndexToPolar ALPHA_RES
  dsimp only
  rw [← abs_of_pos hd, ← abs_mul, abs_of_pos hd, abs_sub_comm]
  congr 1
  push_cast
  norm_num

/-- Loop invariant of the compression for one column. -/
def ColInv (input : Histogram ℝ) (seen : List (ℕ × ℕ)) (z : ℕ) (v : ℝ) : Prop :=
  (v = 0 ∧ ∀ c ∈ seen, c.2 = z → ¬ Reportable input c.1 z) ∨
  (∃ c ∈ seen, c.2 = z ∧ Reportable input c.1 z ∧ v = input.dist c.1 z ∧
    ∀ c' ∈ seen, c'.2 = z → Reportable input c'.1 z → v ≤ input.dist c'.1 z)

theorem compress_loop (input : Histogram ℝ) (hie : input.eDim = 30) (hiz : input.zDim = 60)
    (position : V3 ℝ) (cells : List (ℕ × ℕ)) :
    ∀ (seen : List (ℕ × ℕ)) (new : Histogram ℝ), 0 < new.eDim → new.zDim = 60 →
    (∀ c ∈ cells, c.1 < 30 ∧ c.2 < 60) →
    (∀ z < 60, ColInv input seen z (new.dist 0 z)) →
    ∃ h', loopM (compressCell input position) new cells = some h' ∧ h'.eDim = new.eDim ∧
      h'.zDim = 60 ∧ (∀ e z, e ≠ 0 → h'.dist e z = new.dist e z) ∧
      ∀ z < 60, ColInv input (seen ++ cells) z (h'.dist 0 z) := by
  induction cells with
  | nil =>
    intro seen new he hz hb hi
    exact ⟨new, rfl, rfl, hz, fun _ _ _ => rfl, by simpa using hi⟩
  | cons c cells ih =>
    intro seen new he hz hb hi
    obtain ⟨hc1, hc2⟩ := hb c (by simp)
    have g1 : input.getDist c.1 c.2 = some (input.dist c.1 c.2) :=
      getDist_nat (by omega) (by omega)
    have g2 : new.getDist 0 c.2 = some (new.dist 0 c.2) := by
      have := getDist_nat (h := new) (e := 0) (z := c.2) he (by omega)
      simpa using this
    have g3 : ∀ v, new.setDist 0 c.2 v = some ⟨new.res, new.zDim, new.eDim, setAt new.dist 0 c.2 v⟩ := by
      intro v
      have := setDist_nat (h := new) (e := 0) (z := c.2) he (by omega) v
      simpa using this
    have hrep : ∀ (hd : 0 < input.dist c.1 c.2),
        (cellHeight position c.1 c.2 (input.dist c.1 c.2) < 1 ↔ Reportable input c.1 c.2) := by
      intro hd
      rw [cellHeight_eq position _ _ hd]
      exact ⟨fun h => ⟨hd, h⟩, fun h => h.2⟩
    -- column `c.2` not updated
    have keep : (Reportable input c.1 c.2 → new.dist 0 c.2 ≠ 0 ∧ new.dist 0 c.2 ≤ input.dist c.1 c.2) →
        ∀ z < 60, ColInv input (seen ++ [c]) z (new.dist 0 z) := by
      intro hk z hz'
      rcases hi z hz' with ⟨h1, h2⟩ | ⟨d, hd1, hd2, hd3, hd4, hd5⟩
      · left
        refine ⟨h1, ?_⟩
        intro c' hc' hcz
        rcases List.mem_append.1 hc' with hc' | hc'
        · exact h2 c' hc' hcz
        · simp only [List.mem_singleton] at hc'; subst hc'
          intro hr; subst hcz
          exact (hk hr).1 h1
      · right
        refine ⟨d, by simp [hd1], hd2, hd3, hd4, ?_⟩
        intro c' hc' hcz hr
        rcases List.mem_append.1 hc' with hc' | hc'
        · exact hd5 c' hc' hcz hr
        · simp only [List.mem_singleton] at hc'; subst hc'
          subst hcz; exact (hk hr).2
    have pack : ∀ new' : Histogram ℝ, compressCell input position new c = some new' →
        new'.eDim = new.eDim → new'.zDim = 60 → (∀ e z, e ≠ 0 → new'.dist e z = new.dist e z) →
        (∀ z < 60, ColInv input (seen ++ [c]) z (new'.dist 0 z)) →
        ∃ h', loopM (compressCell input position) new (c :: cells) = some h' ∧ h'.eDim = new.eDim ∧
          h'.zDim = 60 ∧ (∀ e z, e ≠ 0 → h'.dist e z = new.dist e z) ∧
          ∀ z < 60, ColInv input (seen ++ c :: cells) z (h'.dist 0 z) := by
      intro new' h1 h2 h3 h4 h5
      obtain ⟨h', k1, k2, k3, k4, k5⟩ := ih (seen ++ [c]) new' (by omega) h3
        (fun c' hc' => hb c' (by simp [hc'])) h5
      refine ⟨h', by simp only [loopM, h1, Option.bind_some]; exact k1, by omega, k3, ?_, ?_⟩
      · intro e z hez; rw [k4 e z hez, h4 e z hez]
      · intro z hz'; have := k5 z hz'; simpa using this
    by_cases hd : 0 < input.dist c.1 c.2
    · by_cases hu : Reportable input c.1 c.2 ∧
          (input.dist c.1 c.2 < new.dist 0 c.2 ∨ new.dist 0 c.2 = 0)
      · apply pack ⟨new.res, new.zDim, new.eDim, setAt new.dist 0 c.2 (input.dist c.1 c.2)⟩
        · unfold compressCell
          rw [g1, Option.bind_some, g2, Option.bind_some, if_pos hd,
            if_pos ⟨(hrep hd).2 hu.1, hu.2⟩, g3]
        · rfl
        · exact hz
        · intro e z hez; simp [setAt, hez]
        · intro z hz'
          dsimp only [setAt]
          by_cases hcz : z = c.2
          · subst hcz
            rw [if_pos ⟨rfl, rfl⟩]
            right
            refine ⟨c, by simp, rfl, hu.1, rfl, ?_⟩
            intro c' hc' hcz hr
            rcases List.mem_append.1 hc' with hc' | hc'
            · rcases hi c.2 hc2 with ⟨h1, h2⟩ | ⟨d, hd1, hd2, hd3, hd4, hd5⟩
              · exact absurd hr (h2 c' hc' hcz)
              · have h6 := hd5 c' hc' hcz hr
                rcases hu.2 with h7 | h7
                · linarith
                · exfalso; have := hd3.1; linarith
            · simp only [List.mem_singleton] at hc'; subst hc'; exact le_rfl
          · rw [if_neg (by simp [hcz])]
            rcases hi z hz' with ⟨h1, h2⟩ | ⟨d, hd1, hd2, hd3, hd4, hd5⟩
            · left
              refine ⟨h1, ?_⟩
              intro c' hc' hcz'
              rcases List.mem_append.1 hc' with hc' | hc'
              · exact h2 c' hc' hcz'
              · simp only [List.mem_singleton] at hc'; subst hc'; exact absurd hcz'.symm hcz
            · right
              refine ⟨d, by simp [hd1], hd2, hd3, hd4, ?_⟩
              intro c' hc' hcz' hr
              rcases List.mem_append.1 hc' with hc' | hc'
              · exact hd5 c' hc' hcz' hr
              · simp only [List.mem_singleton] at hc'; subst hc'; exact absurd hcz'.symm hcz
      · apply pack new
        · unfold compressCell
          rw [g1, Option.bind_some, g2, Option.bind_some, if_pos hd, if_neg]
          rintro ⟨h1, h2⟩; exact hu ⟨(hrep hd).1 h1, h2⟩
        · rfl
        · exact hz
        · intro _ _ _; rfl
        · apply keep
          intro hr
          have : ¬ (input.dist c.1 c.2 < new.dist 0 c.2 ∨ new.dist 0 c.2 = 0) := fun h => hu ⟨hr, h⟩
          push Not at this
          exact ⟨this.2, this.1⟩
    · apply pack new
      · unfold compressCell
        rw [g1, Option.bind_some, g2, Option.bind_some, if_neg hd]
      · rfl
      · exact hz
      · intro _ _ _; rfl
      · apply keep
        intro hr; exact absurd hr.1 hd

/-- **C26.** Compressing any 6° histogram into an empty one stores, per azimuth column, the smallest
positive distance among the four rows within ±12° (cells whose indices enclose ±10°) whose obstacle
is less than 1 m above or below the vehicle, and 0 exactly when there is no such obstacle; the other
rows stay empty. -/
theorem C26_compress (input : Histogram ℝ) (hie : input.eDim = 30) (hiz : input.zDim = 60)
    (position : V3 ℝ) :
    ∃ h', compressHistogramElevation (Histogram.new 6) input position = some h' ∧
      (∀ e z, e ≠ 0 → h'.dist e z = 0) ∧
      ∀ z < 60,
        (h'.dist 0 z = 0 ↔ ∀ e, 13 ≤ e → e ≤ 16 → ¬ Reportable input e z) ∧
        (∀ e, 13 ≤ e → e ≤ 16 → Reportable input e z → h'.dist 0 z ≤ input.dist e z) ∧
        (h'.dist 0 z ≠ 0 → ∃ e, 13 ≤ e ∧ e ≤ 16 ∧ Reportable input e z ∧
          h'.dist 0 z = input.dist e z) := by
  unfold compressHistogramElevation
  rw [compressRows_eq]
  have hmem : ∀ c : ℕ × ℕ, c ∈ cellList [13, 14, 15, 16] GRID_LENGTH_Z ↔
      (13 ≤ c.1 ∧ c.1 ≤ 16) ∧ c.2 < 60 := by
    intro c
    rw [mem_cellList]
    simp only [GRID_LENGTH_Z, ALPHA_RES, List.mem_cons, List.not_mem_nil, or_false]
    omega
  obtain ⟨h', h1, h2, h3, h4, h5⟩ := compress_loop input hie hiz position
    (cellList [13, 14, 15, 16] GRID_LENGTH_Z) [] (Histogram.new 6) (by norm_num [Histogram.new]) rfl
    (by intro c hc; have := (hmem c).1 hc; omega)
    (by intro z _; left; exact ⟨rfl, by simp⟩)
  refine ⟨h', h1, ?_, ?_⟩
  · intro e z he; rw [h4 e z he]; rfl
  · intro z hz
    rcases h5 z hz with ⟨k1, k2⟩ | ⟨c, c1, c2, c3, c4, c5⟩
    · have hno : ∀ e, 13 ≤ e → e ≤ 16 → ¬ Reportable input e z := fun e e1 e2 =>
        k2 (e, z) (by simp only [List.nil_append]; exact (hmem _).2 ⟨⟨e1, e2⟩, hz⟩) rfl
      exact ⟨⟨fun _ => hno, fun _ => k1⟩, fun e e1 e2 hr => absurd hr (hno e e1 e2),
        fun h => absurd k1 h⟩
    · have hc := (hmem c).1 (by simpa using c1)
      have hpos := c3.1
      refine ⟨⟨fun h => ?_, fun h => ?_⟩, ?_, fun _ => ⟨c.1, hc.1.1, hc.1.2, c3, c4⟩⟩
      · exfalso; rw [c4] at h; linarith
      · exact absurd c3 (h c.1 hc.1.1 hc.1.2)
      · intro e e1 e2 hr
        exact c5 (e, z) (by simp only [List.nil_append]; exact (hmem _).2 ⟨⟨e1, e2⟩, hz⟩) rfl hr

/-- Non-vacuity: an obstacle at 2 m in row 15 is reportable (sin 3° < 1/2). -/
example : Reportable ⟨6, 60, 30, fun e _ => if e = 15 then 1 / 2 else 0⟩ 15 0 := by
  refine ⟨by norm_num, ?_⟩
  have := Real.abs_sin_le_one (((15 * 6 + 3 - 90 : ℤ) : ℝ) * degToRad)
  norm_num at this ⊢
  linarith

end Avoidance
