import Verif.CostMatrixProps
import Mathlib.Algebra.BigOperators.Field

/-!
# C30: padding and smoothing respect the topology of the sphere of directions
-/

set_option linter.unusedSectionVars false

namespace Avoidance
section
variable {K : Type*} [Field K] [LinearOrder K] [IsStrictOrderedRing K]

/-! ## Specification: which cell of the grid lies at (row `i`, column `j`) when rows and columns are
continued beyond the grid.  Columns are periodic; walking over a pole comes back down on the opposite
side. -/

/-- Row of the cell at continued coordinates. -/
def foldRow (rows : ℕ) (i : ℤ) : ℤ := if i < 0 then -1 - i else if i ≥ rows then 2 * rows - 1 - i else i
/-- Column of the cell at continued coordinates. -/
def foldCol (rows cols : ℕ) (i j : ℤ) : ℤ :=
  (j + if i < 0 ∨ i ≥ rows then (cols : ℤ) / 2 else 0) % cols
/-- Matrix entry at continued coordinates. -/
def sphereGet (m : ℕ → ℕ → K) (rows cols : ℕ) (i j : ℤ) : K :=
  m (foldRow rows i).toNat (foldCol rows cols i j).toNat

theorem sphereGet_period (m : ℕ → ℕ → K) (rows cols : ℕ) (i j : ℤ) :
    sphereGet m rows cols i (j + cols) = sphereGet m rows cols i j := by
  unfold sphereGet foldCol
  rw [show j + (cols : ℤ) + (if i < 0 ∨ i ≥ rows then (cols : ℤ) / 2 else 0) =
    (j + if i < 0 ∨ i ≥ rows then (cols : ℤ) / 2 else 0) + cols by ring, Int.add_emod_right]

theorem foldCol_in (rows cols : ℕ) (i j : ℤ) (hc : 0 < cols) :
    0 ≤ foldCol rows cols i j ∧ foldCol rows cols i j < cols :=
  ⟨Int.emod_nonneg _ (by omega), Int.emod_lt_of_pos _ (by omega)⟩

/-- The geometric meaning of the continued coordinates for the 6° grid: up to one grid size beyond
the border, the direction with those coordinates falls into exactly that cell. -/
theorem C30_continuation_is_geometric (i j : ℤ) (hi : -30 ≤ i) (hi' : i < 60) (hj : -60 ≤ j)
    (hj' : j < 120) (r : K) [FloorRing K] :
    polarToHistogramIndex (histogramIndexToPolar i j 6 r) 6 = (foldCol 30 60 i j, foldRow 30 i) := by
  have hidem : ∀ p : PolarPoint K, polarToHistogramIndex p 6 = polarToHistogramIndex (wrapPolar p) 6 := by
    intro p; unfold polarToHistogramIndex; rw [C03_wrapPolar_idempotent]
  obtain ⟨c1, c2⟩ := foldCol_in 30 60 i j (by norm_num)
  have key : wrapPolar (histogramIndexToPolar i j 6 r : PolarPoint K) =
      histogramIndexToPolar (foldRow 30 i) (foldCol 30 60 i j) 6 r := by
    have wrapE : ∀ a b : ℤ, -180 ≤ b → b < 180 → (∃ n : ℤ, a = b + 360 * n) →
        wrap180 ((a : ℤ) : K) = ((b : ℤ) : K) := by
      rintro a b h1 h2 ⟨n, rfl⟩
      refine ((C01_wrap180_canonical _).2 (b : K) (by exact_mod_cast h1) (by exact_mod_cast h2)
        ⟨n, by push_cast; ring⟩).symm
    have hz : wrap180 ((6 * j - 177 : ℤ) : K) = ((6 * (j % 60) - 177 : ℤ) : K) :=
      wrapE _ _ (by omega) (by omega) ⟨j / 60, by omega⟩
    have fz : ∀ x : ℤ, ((x * ((6 : ℕ) : ℤ) + ((6 : ℕ) : ℤ) / 2 - 180 : ℤ) : K) = ((6 * x - 177 : ℤ) : K) := by
      intro x; congr 1; push_cast; norm_num; ring
    have fe : ∀ x : ℤ, ((x * ((6 : ℕ) : ℤ) + ((6 : ℕ) : ℤ) / 2 - 90 : ℤ) : K) = ((6 * x - 87 : ℤ) : K) := by
      intro x; congr 1; push_cast; norm_num; ring
    unfold histogramIndexToPolar
    simp only [fz, fe]
    rw [wrapPolar_cases]
    dsimp only
    rw [hz]
    -- the azimuth after crossing a pole
    have hcross : (if ((6 * (j % 60) - 177 : ℤ) : K) < 0 then ((6 * (j % 60) - 177 : ℤ) : K) + 180
        else ((6 * (j % 60) - 177 : ℤ) : K) - 180) = ((6 * ((j + 30) % 60) - 177 : ℤ) : K) := by
      by_cases hlt : (6 * (j % 60) - 177 : ℤ) < 0
      · rw [if_pos (by exact_mod_cast hlt)]
        have : (6 * ((j + 30) % 60) - 177 : ℤ) = (6 * (j % 60) - 177) + 180 := by omega
        rw [this]; push_cast; ring
      · rw [if_neg (by exact_mod_cast hlt)]
        have : (6 * ((j + 30) % 60) - 177 : ℤ) = (6 * (j % 60) - 177) - 180 := by omega
        rw [this]; push_cast; ring
    rw [hcross]
    have up : ∀ b : ℤ, 90 < b → b < 180 → (∃ n : ℤ, 6 * i - 87 = b + 360 * n) →
        (i < 0 ∨ i ≥ (30 : ℕ)) → 180 - b = 6 * foldRow 30 i - 87 →
        (if wrap180 ((6 * i - 87 : ℤ) : K) > 90 then
          (⟨180 - wrap180 ((6 * i - 87 : ℤ) : K), ((6 * ((j + 30) % 60) - 177 : ℤ) : K), r⟩ : PolarPoint K)
        else if wrap180 ((6 * i - 87 : ℤ) : K) < -90 then
          ⟨-(180 + wrap180 ((6 * i - 87 : ℤ) : K)), ((6 * ((j + 30) % 60) - 177 : ℤ) : K), r⟩
        else ⟨wrap180 ((6 * i - 87 : ℤ) : K), ((6 * (j % 60) - 177 : ℤ) : K), r⟩) =
        ⟨((6 * foldRow 30 i - 87 : ℤ) : K), ((6 * foldCol 30 60 i j - 177 : ℤ) : K), r⟩ := by
      intro b h1 h2 h3 h4 h5
      rw [wrapE _ b (by omega) h2 h3, if_pos (by exact_mod_cast h1)]
      unfold foldCol
      rw [if_pos h4, ← h5]
      congr 1
      push_cast; ring
    have down : ∀ b : ℤ, b < -90 → -180 ≤ b → (∃ n : ℤ, 6 * i - 87 = b + 360 * n) →
        (i < 0 ∨ i ≥ (30 : ℕ)) → -(180 + b) = 6 * foldRow 30 i - 87 →
        (if wrap180 ((6 * i - 87 : ℤ) : K) > 90 then
          (⟨180 - wrap180 ((6 * i - 87 : ℤ) : K), ((6 * ((j + 30) % 60) - 177 : ℤ) : K), r⟩ : PolarPoint K)
        else if wrap180 ((6 * i - 87 : ℤ) : K) < -90 then
          ⟨-(180 + wrap180 ((6 * i - 87 : ℤ) : K)), ((6 * ((j + 30) % 60) - 177 : ℤ) : K), r⟩
        else ⟨wrap180 ((6 * i - 87 : ℤ) : K), ((6 * (j % 60) - 177 : ℤ) : K), r⟩) =
        ⟨((6 * foldRow 30 i - 87 : ℤ) : K), ((6 * foldCol 30 60 i j - 177 : ℤ) : K), r⟩ := by
      intro b h1 h2 h3 h4 h5
      have n1 : ¬ ((b : ℤ) : K) > 90 := by
        have : (b : ℤ) ≤ 90 := by omega
        exact not_lt.2 (by exact_mod_cast this)
      rw [wrapE _ b h2 (by omega) h3, if_neg n1, if_pos (by exact_mod_cast h1)]
      unfold foldCol
      rw [if_pos h4, ← h5]
      congr 1
      push_cast; ring
    by_cases c1 : i < -15
    · exact up (6 * i + 273) (by omega) (by omega) ⟨-1, by ring⟩ (by omega)
        (by unfold foldRow; rw [if_pos (by omega)]; ring)
    by_cases c2 : i < 0
    · exact down (6 * i - 87) (by omega) (by omega) ⟨0, by ring⟩ (by omega)
        (by unfold foldRow; rw [if_pos (by omega)]; ring)
    by_cases c3 : i < 30
    · have n1 : ¬ ((6 * i - 87 : ℤ) : K) > 90 := by
        have : (6 * i - 87 : ℤ) ≤ 90 := by omega
        exact not_lt.2 (by exact_mod_cast this)
      have n2 : ¬ ((6 * i - 87 : ℤ) : K) < -90 := by
        have : (-90 : ℤ) ≤ (6 * i - 87 : ℤ) := by omega
        exact not_lt.2 (by exact_mod_cast this)
      rw [wrapE (6 * i - 87) (6 * i - 87) (by omega) (by omega) ⟨0, by ring⟩, if_neg n1, if_neg n2]
      unfold foldCol foldRow
      rw [if_neg c2, if_neg (by push_cast; omega), if_neg (by push_cast; omega)]
      simp
    by_cases c4 : i < 45
    · exact up (6 * i - 87) (by omega) (by omega) ⟨0, by ring⟩ (by push_cast; omega)
        (by unfold foldRow; rw [if_neg (by omega), if_pos (by push_cast; omega)]; push_cast; ring)
    · exact down (6 * i - 447) (by omega) (by omega) ⟨1, by ring⟩ (by push_cast; omega)
        (by unfold foldRow; rw [if_neg (by omega), if_pos (by push_cast; omega)]; push_cast; ring)
  rw [hidem, key]
  have r1 : 0 ≤ foldRow 30 i ∧ foldRow 30 i < 30 := by
    unfold foldRow; push_cast; split_ifs <;> omega
  exact C04_index_round_trip 6 (by norm_num) _ _ r r1.1 (by norm_num; exact r1.2) c1
    (by norm_num; exact_mod_cast c2)

/-! ## Padding -/

/-- **C30, padding.** For every matrix with an even number of columns and every padding up to the
matrix size, the padded matrix at (`i`, `j`) holds the entry of the grid cell whose continued
coordinates are (`i - n`, `j - n`). -/
theorem C30_padding (m : ℕ → ℕ → K) (rows cols n : ℕ) (hc : 0 < cols) (heven : cols % 2 = 0)
    (hn1 : n ≤ rows) (hn2 : n ≤ cols) :
    ∃ p, padPolarMatrix m rows cols n = some p ∧
      ∀ i j : ℕ, i < rows + 2 * n → j < cols + 2 * n →
        p i j = sphereGet m rows cols ((i : ℤ) - n) ((j : ℤ) - n) := by
  unfold padPolarMatrix
  rw [if_pos ⟨hn1, hn2⟩]
  refine ⟨_, rfl, ?_⟩
  obtain ⟨mid, hmid⟩ : ∃ mid, cols = 2 * mid := ⟨cols / 2, by omega⟩
  have hm2 : cols / 2 = mid := by omega
  rw [hm2]
  set p5 := setBlock (setBlock (setBlock (setBlock (setBlock (fun _ _ => (0 : K)) n n rows cols m)
      0 n n mid (flipRows n (getBlock m 0 mid))) 0 (n + mid) n mid (flipRows n (getBlock m 0 0)))
      (rows + n) n n mid (flipRows n (getBlock m (rows - n) mid)))
      (rows + n) (n + mid) n mid (flipRows n (getBlock m (rows - n) 0)) with hp5
  -- the central columns
  have central : ∀ i j : ℕ, i < rows + 2 * n → n ≤ j → j < n + cols →
      p5 i j = sphereGet m rows cols ((i : ℤ) - n) ((j : ℤ) - n) := by
    intro i j hi hj1 hj2
    have hmod1 : ∀ x : ℤ, 0 ≤ x → x < mid → (x + (cols : ℤ) / 2) % cols = x + mid := by
      intro x h1 h2
      rw [show (cols : ℤ) / 2 = mid by omega]
      exact Int.emod_eq_of_lt (by omega) (by omega)
    have hmod2 : ∀ x : ℤ, mid ≤ x → x < cols → (x + (cols : ℤ) / 2) % cols = x - mid := by
      intro x h1 h2
      rw [show (cols : ℤ) / 2 = mid by omega, show x + (mid : ℤ) = (x - mid) + cols by omega,
        Int.add_emod_right]
      exact Int.emod_eq_of_lt (by omega) (by omega)
    rw [hp5]
    unfold sphereGet foldRow foldCol
    rcases Nat.lt_or_ge i n with h1 | h1
    · -- top
      rw [if_pos (by omega), if_pos (by omega)]
      rcases Nat.lt_or_ge j (n + mid) with h2 | h2
      · simp only [setBlock, getBlock, flipRows]
        rw [if_neg (by omega), if_neg (by omega), if_neg (by omega), if_pos (by omega),
          hmod1 _ (by omega) (by omega)]
        congr 1 <;> omega
      · simp only [setBlock, getBlock, flipRows]
        rw [if_neg (by omega), if_neg (by omega), if_pos (by omega),
          hmod2 _ (by omega) (by omega)]
        congr 1 <;> omega
    · rcases Nat.lt_or_ge i (n + rows) with h3 | h3
      · -- middle
        rw [if_neg (by omega), if_neg (by omega), if_neg (by omega)]
        simp only [setBlock]
        rw [if_neg (by omega), if_neg (by omega), if_neg (by omega), if_neg (by omega),
          if_pos (by omega), Int.add_zero, Int.emod_eq_of_lt (by omega) (by omega)]
        congr 1 <;> omega
      · -- bottom
        rw [if_neg (by omega), if_pos (by omega), if_pos (by omega)]
        rcases Nat.lt_or_ge j (n + mid) with h2 | h2
        · simp only [setBlock, getBlock, flipRows]
          rw [if_neg (by omega), if_pos (by omega), hmod1 _ (by omega) (by omega)]
          congr 1 <;> omega
        · simp only [setBlock, getBlock, flipRows]
          rw [if_pos (by omega), hmod2 _ (by omega) (by omega)]
          congr 1 <;> omega
  intro i j hi hj
  rcases Nat.lt_or_ge j n with h1 | h1
  · -- left border
    simp only [setBlock, getBlock]
    rw [if_neg (by omega), if_pos (by omega)]
    have := central i (cols + 2 * n - 2 * n + j) hi (by omega) (by omega)
    rw [Nat.zero_add, Nat.sub_zero, Nat.sub_zero, this, ← sphereGet_period m rows cols _ ((j : ℤ) - n)]
    congr 1; omega
  · rcases Nat.lt_or_ge j (n + cols) with h2 | h2
    · simp only [setBlock, getBlock]
      rw [if_neg (by omega), if_neg (by omega)]
      exact central i j hi h1 h2
    · -- right border
      simp only [setBlock, getBlock]
      rw [if_pos (by omega), if_neg (by omega)]
      have := central i (n + (j - (n + cols))) hi (by omega) (by omega)
      rw [Nat.zero_add, Nat.sub_zero, this,
        ← sphereGet_period m rows cols _ (((n + (j - (n + cols)) : ℕ) : ℤ) - n)]
      congr 1; omega

/-! ## Kernel -/

/-- Weight of the cone at offset `a - n`. -/
def coneWeight (n a : ℕ) : K := (1 + (n : K) - |(a : K) - (n : K)|) / (1 + (n : K))

theorem conicKernel_eq (n a : ℕ) (ha : a < 2 * n + 1) : (conicKernel n a : K) = coneWeight n a := by
  unfold conicKernel coneWeight
  dsimp only
  have hraw : ∀ row : ℕ, row < 2 * n + 1 →
      max 0 (1 + (n : K) - |(row : K) - (n : K)|) = 1 + (n : K) - |(row : K) - (n : K)| := by
    intro row hrow
    apply max_eq_right
    have h1 : (row : K) ≤ 2 * n := by exact_mod_cast (by omega : row ≤ 2 * n)
    have h0 : (0 : K) ≤ row := Nat.cast_nonneg _
    have : |(row : K) - (n : K)| ≤ n := abs_le.2 ⟨by linarith, by linarith⟩
    linarith
  have hmax : ((List.range (n * 2 + 1)).map (fun row : ℕ => max 0 (1 + (n : K) - |(row : K) - (n : K)|))).foldl
      max (max 0 (1 + (n : K) - |((0 : ℕ) : K) - (n : K)|)) = 1 + (n : K) := by
    have ub : ∀ (l : List K) (x b : K), x ≤ b → (∀ y ∈ l, y ≤ b) → l.foldl max x ≤ b := by
      intro l
      induction l with
      | nil => intro x b h _; exact h
      | cons y l ih =>
        intro x b h hl
        exact ih _ _ (max_le h (hl y (by simp))) (fun z hz => hl z (by simp [hz]))
    have lb : ∀ (l : List K) (x y : K), (y ≤ x ∨ y ∈ l) → y ≤ l.foldl max x := by
      intro l
      induction l with
      | nil => intro x y h; simpa using h
      | cons z l ih =>
        intro x y h
        apply ih
        rcases h with h | h
        · left; exact h.trans (le_max_left _ _)
        · rcases List.mem_cons.1 h with rfl | h
          · left; exact le_max_right _ _
          · right; exact h
    have hn0 : (0 : K) ≤ n := Nat.cast_nonneg _
    have hb : ∀ row : ℕ, max 0 (1 + (n : K) - |(row : K) - (n : K)|) ≤ 1 + n := by
      intro row
      apply max_le (by linarith)
      have := abs_nonneg ((row : K) - (n : K))
      linarith
    apply le_antisymm
    · apply ub _ _ _ (hb 0)
      intro y hy
      obtain ⟨row, -, rfl⟩ := List.mem_map.1 hy
      exact hb row
    · apply lb
      right
      refine List.mem_map.2 ⟨n, List.mem_range.2 (by omega), ?_⟩
      rw [hraw n (by omega)]; simp
  rw [hmax, hraw a ha]
  ring

theorem coneWeight_nonneg (n a : ℕ) (ha : a < 2 * n + 1) : (0 : K) ≤ coneWeight n a := by
  unfold coneWeight
  have h1 : (a : K) ≤ 2 * n := by exact_mod_cast (by omega : a ≤ 2 * n)
  have h0 : (0 : K) ≤ a := Nat.cast_nonneg _
  have hn0 : (0 : K) ≤ n := Nat.cast_nonneg _
  have : |(a : K) - (n : K)| ≤ n := abs_le.2 ⟨by linarith, by linarith⟩
  exact div_nonneg (by linarith) (by linarith)

theorem coneWeight_centre (n : ℕ) : (coneWeight n n : K) = 1 := by
  unfold coneWeight
  have : (1 : K) + n ≠ 0 := by positivity
  simp [this]

theorem coneWeight_sum (n : ℕ) : ∑ a ∈ Finset.range (2 * n + 1), (coneWeight n a : K) = n + 1 := by
  unfold coneWeight
  have h : (1 : K) + n ≠ 0 := by positivity
  rw [← Finset.sum_div, div_eq_iff h]
  have key : ∀ m : ℕ, m ≤ n → ∑ a ∈ Finset.range m, (1 + (n : K) - |(a : K) - (n : K)|) = m * (m + 1) / 2 := by
    intro m
    induction m with
    | zero => simp
    | succ m ih =>
      intro hm
      rw [Finset.sum_range_succ, ih (by omega)]
      have : (m : K) ≤ n := by exact_mod_cast (by omega : m ≤ n)
      rw [abs_of_nonpos (by linarith)]
      push_cast; ring
  have key2 : ∀ m : ℕ, m ≤ n + 1 → ∑ a ∈ Finset.range (n + m), (1 + (n : K) - |(a : K) - (n : K)|) =
      n * (n + 1) / 2 + m * (1 + n) - m * (m - 1) / 2 := by
    intro m
    induction m with
    | zero => intro _; rw [Nat.add_zero, key n le_rfl]; simp
    | succ m ih =>
      intro hm
      rw [← Nat.add_assoc, Finset.sum_range_succ, ih (by omega)]
      push_cast
      rw [abs_of_nonneg (by have : (0 : K) ≤ m := Nat.cast_nonneg _
                            linarith)]
      ring
  rw [show 2 * n + 1 = n + (n + 1) by ring, key2 (n + 1) le_rfl]
  push_cast
  ring

/-! ## Smoothing -/

/-- **C30, smoothing.** Every smoothed entry is the cone-weighted sum over the neighbouring
directions on the sphere. -/
theorem C30_smoothing (m : ℕ → ℕ → K) (rows cols n : ℕ) (hc : 0 < cols) (heven : cols % 2 = 0)
    (hn1 : n ≤ rows) (hn2 : n ≤ cols) :
    ∃ s, smoothPolarMatrix m rows cols n = some s ∧ ∀ i < rows, ∀ j < cols,
      s i j = ∑ b ∈ Finset.range (2 * n + 1), ∑ a ∈ Finset.range (2 * n + 1),
        coneWeight n a * coneWeight n b *
          sphereGet m rows cols ((i : ℤ) + a - n) ((j : ℤ) + b - n) := by
  obtain ⟨p, hp, hp2⟩ := C30_padding m rows cols n hc heven hn1 hn2
  unfold smoothPolarMatrix
  rw [hp, Option.map_some]
  refine ⟨_, rfl, ?_⟩
  intro i hi j hj
  dsimp only
  rw [if_pos ⟨hi, hj⟩]
  apply Finset.sum_congr rfl
  intro b hb
  have hb' := Finset.mem_range.1 hb
  rw [if_pos ⟨by omega, by omega, by omega⟩, conicKernel_eq n b hb', Finset.sum_mul]
  apply Finset.sum_congr rfl
  intro a ha
  have ha' := Finset.mem_range.1 ha
  rw [conicKernel_eq n a ha', hp2 _ _ (by omega) (by omega)]
  have e1 : ((i + n - n + a : ℕ) : ℤ) - n = (i : ℤ) + a - n := by omega
  have e2 : ((j + b : ℕ) : ℤ) - n = (j : ℤ) + b - n := by omega
  rw [e1, e2]; ring

theorem foldRow_in {rows : ℕ} {i : ℤ} (h1 : -(rows : ℤ) ≤ i) (h2 : i < 2 * rows) :
    0 ≤ foldRow rows i ∧ foldRow rows i < rows := by
  unfold foldRow; split_ifs <;> omega

/-- Smoothing never lowers a non-negative matrix: no obstacle cost is hidden; it keeps
non-negativity, is monotone, and multiplies a constant by the kernel mass `(n+1)²`. -/
theorem C30_smoothing_consequences (rows cols n : ℕ) (hc : 0 < cols) (heven : cols % 2 = 0)
    (hn1 : n ≤ rows) (hn2 : n ≤ cols) :
    (∀ m : ℕ → ℕ → K, (∀ i < rows, ∀ j < cols, 0 ≤ m i j) →
      ∃ s, smoothPolarMatrix m rows cols n = some s ∧ ∀ i < rows, ∀ j < cols, m i j ≤ s i j) ∧
    (∀ m m' : ℕ → ℕ → K, (∀ i < rows, ∀ j < cols, m i j ≤ m' i j) →
      ∃ s s', smoothPolarMatrix m rows cols n = some s ∧ smoothPolarMatrix m' rows cols n = some s' ∧
        ∀ i < rows, ∀ j < cols, s i j ≤ s' i j) ∧
    (∀ c : K, ∃ s, smoothPolarMatrix (fun _ _ => c) rows cols n = some s ∧
        ∀ i < rows, ∀ j < cols, s i j = c * ((n : K) + 1) ^ 2) := by
  have hin : ∀ (i j a b : ℕ), i < rows → a < 2 * n + 1 →
      (foldRow rows ((i : ℤ) + a - n)).toNat < rows ∧
      (foldCol rows cols ((i : ℤ) + a - n) ((j : ℤ) + b - n)).toNat < cols := by
    intro i j a b hi ha
    obtain ⟨f1, f2⟩ := foldRow_in (rows := rows) (i := (i : ℤ) + a - n) (by omega) (by omega)
    obtain ⟨g1, g2⟩ := foldCol_in rows cols ((i : ℤ) + a - n) ((j : ℤ) + b - n) hc
    omega
  refine ⟨?_, ?_, ?_⟩
  · intro m hm
    obtain ⟨s, h1, h2⟩ := C30_smoothing m rows cols n hc heven hn1 hn2
    refine ⟨s, h1, ?_⟩
    intro i hi j hj
    rw [h2 i hi j hj]
    have nonneg : ∀ a b, a < 2 * n + 1 → b < 2 * n + 1 → 0 ≤ (coneWeight n a * coneWeight n b : K) *
        sphereGet m rows cols ((i : ℤ) + a - n) ((j : ℤ) + b - n) := by
      intro a b ha hb
      obtain ⟨k1, k2⟩ := hin i j a b hi ha
      exact mul_nonneg (mul_nonneg (coneWeight_nonneg n a ha) (coneWeight_nonneg n b hb)) (hm _ k1 _ k2)
    have e : m i j = (coneWeight n n * coneWeight n n : K) *
        sphereGet m rows cols ((i : ℤ) + n - n) ((j : ℤ) + n - n) := by
      rw [coneWeight_centre]
      unfold sphereGet foldRow foldCol
      rw [if_neg (by omega), if_neg (by omega), if_neg (by omega), Int.add_zero,
        Int.emod_eq_of_lt (by omega) (by omega)]
      simp
    rw [e]
    refine le_trans (Finset.single_le_sum (f := fun a => (coneWeight n a * coneWeight n n : K) *
        sphereGet m rows cols ((i : ℤ) + a - n) ((j : ℤ) + n - n)) ?_
        (Finset.mem_range.2 (by omega : n < 2 * n + 1))) ?_
    · intro a ha; exact nonneg a n (Finset.mem_range.1 ha) (by omega)
    · refine Finset.single_le_sum (f := fun b : ℕ => ∑ a ∈ Finset.range (2 * n + 1),
        (coneWeight n a * coneWeight n b : K) *
        sphereGet m rows cols ((i : ℤ) + a - n) ((j : ℤ) + b - n)) ?_
        (Finset.mem_range.2 (by omega : n < 2 * n + 1))
      intro b hb
      apply Finset.sum_nonneg
      intro a ha; exact nonneg a b (Finset.mem_range.1 ha) (Finset.mem_range.1 hb)
  · intro m m' hm
    obtain ⟨s, h1, h2⟩ := C30_smoothing m rows cols n hc heven hn1 hn2
    obtain ⟨s', h1', h2'⟩ := C30_smoothing m' rows cols n hc heven hn1 hn2
    refine ⟨s, s', h1, h1', ?_⟩
    intro i hi j hj
    rw [h2 i hi j hj, h2' i hi j hj]
    apply Finset.sum_le_sum
    intro b hb
    apply Finset.sum_le_sum
    intro a ha
    obtain ⟨k1, k2⟩ := hin i j a b hi (Finset.mem_range.1 ha)
    exact mul_le_mul_of_nonneg_left (hm _ k1 _ k2)
      (mul_nonneg (coneWeight_nonneg n a (Finset.mem_range.1 ha)) (coneWeight_nonneg n b (Finset.mem_range.1 hb)))
  · intro c
    obtain ⟨s, h1, h2⟩ := C30_smoothing (fun _ _ => c) rows cols n hc heven hn1 hn2
    refine ⟨s, h1, ?_⟩
    intro i hi j hj
    rw [h2 i hi j hj]
    simp only [sphereGet]
    have : ∀ b : ℕ, ∑ a ∈ Finset.range (2 * n + 1), (coneWeight n a * coneWeight n b * c : K) =
        ((n : K) + 1) * (coneWeight n b * c) := by
      intro b
      rw [← coneWeight_sum n, Finset.sum_mul]
      apply Finset.sum_congr rfl
      intro a _; ring
    simp only [this]
    rw [← Finset.mul_sum, ← Finset.sum_mul, coneWeight_sum]
    ring

/-- Non-vacuity: the production grid with a 5-cell margin; crossing the upper pole from column 10
arrives at column 40. -/
example : (∃ s, smoothPolarMatrix (fun i j => (i + j : ℚ)) 30 60 5 = some s ∧
      ∀ i : ℕ, i < 30 → ∀ j : ℕ, j < 60 → (i + j : ℚ) ≤ s i j) ∧
    sphereGet (fun i j => (100 * i + j : ℚ)) 30 60 31 10 = 2840 := by
  refine ⟨?_, by decide +kernel⟩
  exact (C30_smoothing_consequences (K := ℚ) 30 60 5 (by norm_num) (by norm_num) (by norm_num)
    (by norm_num)).1 (fun i j => (i + j : ℚ)) (fun i _ j _ => by positivity)

end

/-! ## The whole cost matrix -/

/-- Rows are sampled in steps of at least one column. -/
theorem stepSize_pos (e : ℕ) (he : e < 30) : 0 < stepSize e := by
  unfold stepSize
  have hang : (histogramIndexToPolar (K := ℝ) e 0 ALPHA_RES 1).e * degToRad =
      ((6 * (e : ℝ) - 87)) * (Real.pi / 180) := by
    unfold histogramIndexToPolar ALPHA_RES degToRad; push_cast; norm_num; ring
  have hpi := Real.pi_pos
  have e0 : (0 : ℝ) ≤ e := Nat.cast_nonneg _
  have e1 : (e : ℝ) ≤ 29 := by exact_mod_cast (by omega : e ≤ 29)
  have hc : 0 < Real.cos ((6 * (e : ℝ) - 87) * (Real.pi / 180)) := by
    apply Real.cos_pos_of_mem_Ioo
    constructor <;> nlinarith
  rw [hang]
  have h1 : (1 : ℝ) ≤ 1 / Real.cos ((6 * (e : ℝ) - 87) * (Real.pi / 180)) := by
    rw [le_div_iff₀ hc]; simpa using Real.cos_le_one _
  have : (1 : ℤ) ≤ ⌊1 / Real.cos ((6 * (e : ℝ) - 87) * (Real.pi / 180)) + 1 / 2⌋ :=
    Int.le_floor.2 (by push_cast; linarith)
  omega

/-- Within ±45° of the horizon every column is sampled. -/
theorem stepSize_one (e : ℕ) (h1 : 7 ≤ e) (h2 : e ≤ 22) : stepSize e = 1 := by
  unfold stepSize
  have hang : (histogramIndexToPolar (K := ℝ) e 0 ALPHA_RES 1).e * degToRad =
      ((6 * (e : ℝ) - 87)) * (Real.pi / 180) := by
    unfold histogramIndexToPolar ALPHA_RES degToRad; push_cast; norm_num; ring
  rw [hang]
  have hpi := Real.pi_pos
  have e0 : (7 : ℝ) ≤ e := by exact_mod_cast h1
  have e1 : (e : ℝ) ≤ 22 := by exact_mod_cast h2
  have habs : |(6 * (e : ℝ) - 87) * (Real.pi / 180)| ≤ Real.pi / 4 := by
    rw [abs_le]; constructor <;> nlinarith
  have hc : Real.sqrt 2 / 2 ≤ Real.cos ((6 * (e : ℝ) - 87) * (Real.pi / 180)) := by
    rw [← Real.cos_abs, ← Real.cos_pi_div_four]
    exact Real.cos_le_cos_of_nonneg_of_le_pi (abs_nonneg _) (by linarith) habs
  have hs : (4 / 3 : ℝ) < Real.sqrt 2 := by
    rw [Real.lt_sqrt (by norm_num)]; norm_num
  have hc1 : (2 / 3 : ℝ) < Real.cos ((6 * (e : ℝ) - 87) * (Real.pi / 180)) := by linarith
  have hc2 := Real.cos_le_one ((6 * (e : ℝ) - 87) * (Real.pi / 180))
  generalize Real.cos ((6 * (e : ℝ) - 87) * (Real.pi / 180)) = c at *
  have f : ⌊1 / c + 1 / 2⌋ = 1 := by
    rw [Int.floor_eq_iff]
    have hc0 : 0 < c := by linarith
    have a1 : 1 ≤ 1 / c := by rw [le_div_iff₀ hc0]; linarith
    have a2 : 1 / c < 3 / 2 := by rw [div_lt_iff₀ hc0]; linarith
    push_cast; constructor <;> linarith
  rw [f]; rfl

/-- `is_obstacle_facing_goal` inspects the 5×11 directions around the goal. -/
theorem C29_obstacle_facing_goal (h : Histogram ℝ) (he : h.eDim = 30) (hz : h.zDim = 60)
    (goal position : V3 ℝ) (maxr minr : ℝ) :
    ∃ b, isObstacleFacingGoal h goal position maxr minr = some b ∧
      (b = true ↔ ∃ j i : ℤ, -2 ≤ j ∧ j ≤ 2 ∧ -5 ≤ i ∧ i ≤ 5 ∧
        let idx := polarToHistogramIndex (⟨(cartesianToPolarHistogram goal position).e + j * 6,
          (cartesianToPolarHistogram goal position).z + i * 6, 0⟩ : PolarPoint ℝ) 6
        minr < h.dist idx.2.toNat idx.1.toNat ∧ h.dist idx.2.toNat idx.1.toNat < maxr) := by
  unfold isObstacleFacingGoal ALPHA_RES
  dsimp only
  set gp := cartesianToPolarHistogram goal position
  let idx : ℕ × ℕ → ℤ × ℤ := fun ji => polarToHistogramIndex
    (⟨gp.e + (((ji.1 : ℤ) - 2 : ℤ) : ℝ) * (6 : ℕ), gp.z + (((ji.2 : ℤ) - 5 : ℤ) : ℝ) * (6 : ℕ), 0⟩ :
      PolarPoint ℝ) 6
  let P : ℕ × ℕ → Prop := fun ji =>
    minr < h.dist (idx ji).2.toNat (idx ji).1.toNat ∧ h.dist (idx ji).2.toNat (idx ji).1.toNat < maxr
  have key : ∀ (l : List (ℕ × ℕ)) (b : Bool), ∃ b', loopM (fun (b : Bool) (ji : ℕ × ℕ) =>
      (h.getDist (idx ji).2 (idx ji).1).map fun d => if d > minr ∧ d < maxr then b || true else b)
      b l = some b' ∧ (b' = true ↔ b = true ∨ ∃ c ∈ l, P c) := by
    intro l
    induction l with
    | nil => intro b; exact ⟨b, rfl, by simp⟩
    | cons c l ih =>
      intro b
      obtain ⟨r1, r2, r3, r4⟩ := C04_index_in_range
        (⟨gp.e + (((c.1 : ℤ) - 2 : ℤ) : ℝ) * (6 : ℕ), gp.z + (((c.2 : ℤ) - 5 : ℤ) : ℝ) * (6 : ℕ), 0⟩ :
          PolarPoint ℝ) 6 (by norm_num) (by norm_num)
      have g : h.getDist (idx c).2 (idx c).1 = some (h.dist (idx c).2.toNat (idx c).1.toNat) := by
        have e1 : (idx c).2 = (((idx c).2.toNat : ℕ) : ℤ) := (Int.toNat_of_nonneg r3).symm
        have e2 : (idx c).1 = (((idx c).1.toNat : ℕ) : ℤ) := (Int.toNat_of_nonneg r1).symm
        have l1 : (idx c).2.toNat < h.eDim := by
          have r4' : (idx c).2 < ((180 / 6 : ℕ) : ℤ) := r4
          rw [he]; omega
        have l2 : (idx c).1.toNat < h.zDim := by
          have r2' : (idx c).1 < ((360 / 6 : ℕ) : ℤ) := r2
          rw [hz]; omega
        have := getDist_nat l1 l2
        rw [← e1, ← e2] at this
        exact this
      obtain ⟨b', h1, h2⟩ := ih (if h.dist (idx c).2.toNat (idx c).1.toNat > minr ∧
        h.dist (idx c).2.toNat (idx c).1.toNat < maxr then b || true else b)
      refine ⟨b', by simp only [loopM]; rw [g]; exact h1, ?_⟩
      rw [h2]
      by_cases hP : P c
      · have hP' : h.dist (idx c).2.toNat (idx c).1.toNat > minr ∧
          h.dist (idx c).2.toNat (idx c).1.toNat < maxr := hP
        simp [hP, hP']
      · have hP' : ¬ (h.dist (idx c).2.toNat (idx c).1.toNat > minr ∧
          h.dist (idx c).2.toNat (idx c).1.toNat < maxr) := hP
        simp only [if_neg hP', List.mem_cons, exists_eq_or_imp, hP, false_or]
  obtain ⟨b, h1, h2⟩ := key (cellList (List.range 5) 11) false
  refine ⟨b, h1, ?_⟩
  rw [h2]
  simp only [Bool.false_eq_true, false_or]
  constructor
  · rintro ⟨c, hc, hP⟩
    obtain ⟨c1, c2⟩ := mem_cellList.1 hc
    have c1' := List.mem_range.1 c1
    refine ⟨(c.1 : ℤ) - 2, (c.2 : ℤ) - 5, by omega, by omega, by omega, by omega, ?_⟩
    exact hP
  · rintro ⟨j, i, j1, j2, i1, i2, hP⟩
    refine ⟨((j + 2).toNat, (i + 5).toNat), mem_cellList.2 ⟨List.mem_range.2 (by dsimp only; omega), by dsimp only; omega⟩, ?_⟩
    have e1 : ((((j + 2).toNat : ℕ) : ℤ) - 2) = j := by omega
    have e2 : ((((i + 5).toNat : ℕ) : ℤ) - 5) = i := by omega
    show minr < h.dist (idx ((j + 2).toNat, (i + 5).toNat)).2.toNat _ ∧ _
    have : idx ((j + 2).toNat, (i + 5).toNat) = polarToHistogramIndex
        (⟨gp.e + (j : ℝ) * 6, gp.z + (i : ℝ) * 6, 0⟩ : PolarPoint ℝ) 6 := by
      show polarToHistogramIndex _ 6 = _
      dsimp only
      rw [e1, e2]; norm_num
    rw [this]
    exact hP

/-- Specification: the value at column `j` of a row sampled at every `step`-th of `N` columns and
interpolated linearly around the circle. -/
noncomputable def interpolated (N step : ℕ) (c : ℕ → ℝ) (j : ℕ) : ℝ :=
  c (prevSample step j) + (c (nextSample N step j) - c (prevSample step j)) /
    (sampleGap N step j : ℝ) * ((j - prevSample step j : ℕ) : ℝ)

/-- Filling all rows. -/
theorem fillMatrix_spec (rows N : ℕ) (hN : 0 < N) (step : ℕ → ℕ) (hs : ∀ e < rows, 0 < step e)
    (cost : ℕ → ℕ → Option ℝ) (c : ℕ → ℕ → ℝ) (hcost : ∀ e < rows, ∀ z < N, cost e z = some (c e z)) :
    ∃ m, fillMatrix rows N step cost = some m ∧ ∀ e < rows, ∀ z < N, ∃ v, m e z = some v ∧
      (step e ∣ z → v = c e z) ∧
      min (c e (prevSample (step e) z)) (c e (nextSample N (step e) z)) ≤ v ∧
      v = interpolated N (step e) (c e) z := by
  have hrow : ∀ e < rows, fillRow N (step e) (cost e) = fillRow N (step e) (fun z => some (c e z)) := by
    intro e he
    unfold fillRow
    have hm : ∀ z ∈ sampleIndices N (step e), z < N :=
      fun z hz => ((mem_sampleIndices (hs e he)).1 hz).1
    rw [writeAll N (cost e) _ hm, writeAll N (fun z => some (c e z)) _ hm]
    have : (fun j => if j ∈ sampleIndices N (step e) then cost e j else none) =
        (fun j => if j ∈ sampleIndices N (step e) then some (c e j) else none) := by
      funext j
      by_cases hj : j ∈ sampleIndices N (step e)
      · rw [if_pos hj, if_pos hj, hcost e he j (hm j hj)]
      · rw [if_neg hj, if_neg hj]
    rw [this]
  unfold fillMatrix
  have key : ∀ k, k ≤ rows → ∃ m, loopM (fun m e => (fillRow N (step e) (cost e)).map fun r =>
        Function.update m e r) (fun _ _ => none) (List.range k) = some m ∧
      ∀ e < k, fillRow N (step e) (cost e) = some (m e) := by
    intro k
    induction k with
    | zero => intro _; exact ⟨_, rfl, by simp⟩
    | succ k ih =>
      intro hk
      obtain ⟨m, h1, h2⟩ := ih (by omega)
      obtain ⟨row, g1, -⟩ := C29_row_fill N (step k) hN (hs k (by omega)) (c k)
      rw [← hrow k (by omega)] at g1
      refine ⟨Function.update m k row, ?_, ?_⟩
      · rw [List.range_succ, loopM_append, h1, Option.bind_some]
        simp only [loopM, g1, Option.map_some, Option.bind_some]
      · intro e he
        by_cases hek : e = k
        · subst hek; rw [Function.update_self]; exact g1
        · rw [Function.update_of_ne hek]; exact h2 e (by omega)
  obtain ⟨m, h1, h2⟩ := key rows le_rfl
  refine ⟨m, h1, ?_⟩
  intro e he z hz
  obtain ⟨row, v, k1, k2, k3, k4, -⟩ := C29_between_samples N (step e) hN (hs e he) (c e) z hz
  rw [← hrow e he, h2 e he] at k1
  simp only [Option.some.injEq] at k1
  refine ⟨v, by rw [k1]; exact k2, k3, k4, ?_⟩
  obtain ⟨row', r1, r2⟩ := C29_row_fill N (step e) hN (hs e he) (c e)
  rw [← hrow e he, h2 e he] at r1
  simp only [Option.some.injEq] at r1
  have r3 := r2 z hz
  rw [← r1, k1, k2] at r3
  simpa [interpolated] using r3

/-- **C29/C30, end to end.** For every histogram, goal away from the vehicle, non-negative cost
parameters and smoothing margin up to 180°, `getCostMatrix` performs no out-of-bounds access,
produces a finite non-negative cost for every cell, and charges at least the full obstacle cost in
every sampled column. -/
theorem C29_cost_matrix (h : Histogram ℝ) (he : h.eDim = 30) (hz : h.zDim = 60)
    (goal position velocity : V3 ℝ) (params : CostParams) (margin : ℝ) (closest_pt : V3 ℝ)
    (maxr minr : ℝ) (hg : goal ≠ position) (p1 : 0 ≤ params.yaw) (p2 : 0 ≤ params.pitch)
    (p3 : 0 ≤ params.velocity) (hm : margin ≤ 180) :
    ∃ M, getCostMatrix h goal position velocity params margin closest_pt maxr minr = some M ∧
      ∀ e < 30, ∀ z < 60, 0 ≤ M e z ∧
        (stepSize e ∣ z → distanceCost params (h.dist e z) ≤ M e z) := by
  obtain ⟨facing, hf, -⟩ := C29_obstacle_facing_goal h he hz goal position maxr minr
  -- costs of all cells are defined
  have hraw : ∀ e z, ∃ c, e < 30 → z < 60 →
      rawCost h goal position velocity params closest_pt facing e z =
        some (distanceCost params (h.dist e z), c) ∧ 0 ≤ c := by
    intro e z
    obtain ⟨c, c1, c2, -⟩ := C28_other_costs (histogramIndexToPolar (K := ℝ) e z ALPHA_RES 1)
      (h.dist e z) goal position velocity params closest_pt facing p1 p2 p3 hg
    refine ⟨c, fun h1 h2 => ⟨?_, c2⟩⟩
    unfold rawCost
    rw [getDist_nat (by omega) (by omega), Option.bind_some]
    exact c1
  choose c hc using hraw
  have hdnn : ∀ d, 0 ≤ distanceCost params d := by
    intro d
    rcases le_or_gt d 0 with h0 | h0
    · rw [(C28_obstacle_cost params).1 d h0]
    · exact ((C28_obstacle_cost params).2.1 d h0).1.le
  obtain ⟨m1, a1, a2⟩ := fillMatrix_spec 30 60 (by norm_num) stepSize stepSize_pos
    (fun e z => (rawCost h goal position velocity params closest_pt facing e z).map Prod.snd) c
    (fun e h1 z h2 => by rw [(hc e z h1 h2).1]; rfl)
  obtain ⟨m2, b1, b2⟩ := fillMatrix_spec 30 60 (by norm_num) stepSize stepSize_pos
    (fun e z => (rawCost h goal position velocity params closest_pt facing e z).map Prod.fst)
    (fun e z => distanceCost params (h.dist e z))
    (fun e h1 z h2 => by rw [(hc e z h1 h2).1]; rfl)
  have nn1 : withoutNaN 30 60 m1 = some fun e z => (m1 e z).getD 0 := by
    unfold withoutNaN; rw [if_pos]
    intro e h1 z h2; obtain ⟨v, hv, -⟩ := a2 e h1 z h2; rw [hv]; rfl
  have nn2 : withoutNaN 30 60 m2 = some fun e z => (m2 e z).getD 0 := by
    unfold withoutNaN; rw [if_pos]
    intro e h1 z h2; obtain ⟨v, hv, -⟩ := b2 e h1 z h2; rw [hv]; rfl
  have hn : ⌈margin / ((6 : ℕ) : ℝ)⌉.toNat ≤ 30 := by
    have : ⌈margin / ((6 : ℕ) : ℝ)⌉ ≤ 30 := Int.ceil_le.2 (by
      push_cast; rw [div_le_iff₀ (by norm_num)]; linarith)
    omega
  have hpos : ∀ e < 30, ∀ z < 60, 0 ≤ (m2 e z).getD 0 := by
    intro e h1 z h2
    obtain ⟨v, hv, -, hv3, -⟩ := b2 e h1 z h2
    rw [hv]
    exact (le_min (hdnn _) (hdnn _)).trans hv3
  obtain ⟨s, s1, s2⟩ := (C30_smoothing_consequences (K := ℝ) 30 60 ⌈margin / ((6 : ℕ) : ℝ)⌉.toNat
    (by norm_num) (by norm_num) hn (by omega)).1 (fun e z => (m2 e z).getD 0) hpos
  refine ⟨fun e z => (m1 e z).getD 0 + s e z, ?_, ?_⟩
  · unfold getCostMatrix
    rw [hf, Option.bind_some]
    dsimp only
    rw [show GRID_LENGTH_E = 30 from rfl, show GRID_LENGTH_Z = 60 from rfl, a1, Option.bind_some, b1,
      Option.bind_some, nn1, Option.bind_some, nn2, Option.bind_some]
    rw [show (ALPHA_RES : ℕ) = 6 from rfl, s1]
    rfl
  · intro e h1 z h2
    obtain ⟨v, hv, -, hv3, -⟩ := a2 e h1 z h2
    obtain ⟨w, hw, hw2, -⟩ := b2 e h1 z h2
    have hv0 : 0 ≤ v := by
      refine (le_min ?_ ?_).trans hv3
      · exact (hc e _ h1 (lt_of_le_of_lt (prevSample_bounds (stepSize_pos e h1) z).1 h2)).2
      · exact (hc e _ h1 (nextSample_lt (by norm_num) z)).2
    have hs := s2 e h1 z h2
    have hp := hpos e h1 z h2
    rw [hw] at hs hp
    simp only [Option.getD_some] at hs hp
    dsimp only
    rw [hv]
    simp only [Option.getD_some]
    refine ⟨by linarith, ?_⟩
    intro hd
    rw [← hw2 hd]; linarith

/-- The sampling step of a row is 1 / cos(elevation of its centre), rounded to the nearest
integer. -/
theorem C29_step_size (e : ℕ) (he : e < 30) :
    |(stepSize e : ℝ) - 1 / Real.cos ((6 * e - 87) * degToRad)| ≤ 1 / 2 := by
  have hp := stepSize_pos e he
  unfold stepSize at hp ⊢
  have e1 : (histogramIndexToPolar (K := ℝ) e 0 ALPHA_RES 1).e = 6 * e - 87 := by
    unfold histogramIndexToPolar ALPHA_RES; push_cast; ring
  rw [e1] at hp ⊢
  generalize 1 / Real.cos ((6 * (e:ℝ) - 87) * degToRad) = t at *
  have h1 := Int.floor_le (t + 1 / 2)
  have h2 := Int.lt_floor_add_one (t + 1 / 2)
  have h3 : ((⌊t + 1 / 2⌋.toNat : ℕ) : ℝ) = (⌊t + 1 / 2⌋ : ℝ) := by
    have : ((⌊t + 1 / 2⌋.toNat : ℕ) : ℤ) = ⌊t + 1 / 2⌋ := Int.toNat_of_nonneg (by omega)
    exact_mod_cast this
  rw [h3, abs_le]
  constructor <;> linarith

/-- **C29/C30, exact value.** For every histogram, goal away from the vehicle and smoothing margin
up to 180°, each entry of the cost matrix is the interpolated other cost of its direction plus the
cone-weighted sum, over the neighbouring directions on the sphere, of the interpolated obstacle
costs; the radius of the cone is the margin in cells, rounded up. -/
theorem C29_cost_matrix_exact (h : Histogram ℝ) (he : h.eDim = 30) (hz : h.zDim = 60)
    (goal position velocity : V3 ℝ) (params : CostParams) (margin : ℝ) (closest_pt : V3 ℝ)
    (maxr minr : ℝ) (hg : goal ≠ position) (hm : margin ≤ 180) :
    ∃ facing M, ∃ other : ℕ → ℕ → ℝ,
      isObstacleFacingGoal h goal position maxr minr = some facing ∧
      (∀ (e : ℕ), e < 30 → ∀ (z : ℕ), z < 60 → costFunction ⟨6 * e - 87, 6 * z - 177, 1⟩ (h.dist e z) goal position velocity
        params closest_pt facing = some (distanceCost params (h.dist e z), other e z)) ∧
      getCostMatrix h goal position velocity params margin closest_pt maxr minr = some M ∧
      ∀ n : ℕ, n = ⌈margin / 6⌉.toNat → ∀ e < 30, ∀ z < 60,
        M e z = interpolated 60 (stepSize e) (other e) z +
          ∑ b ∈ Finset.range (2 * n + 1), ∑ a ∈ Finset.range (2 * n + 1),
            coneWeight n a * coneWeight n b *
              sphereGet (fun e z => interpolated 60 (stepSize e)
                (fun z => distanceCost params (h.dist e z)) z) 30 60
                ((e : ℤ) + a - n) ((z : ℤ) + b - n) := by
  obtain ⟨facing, hf, -⟩ := C29_obstacle_facing_goal h he hz goal position maxr minr
  have hpol : ∀ e z : ℕ, (histogramIndexToPolar (K := ℝ) e z ALPHA_RES 1) =
      ⟨6 * e - 87, 6 * z - 177, 1⟩ := by
    intro e z
    unfold histogramIndexToPolar ALPHA_RES
    ext
    · push_cast; ring
    · push_cast; ring
    · rfl
  have hraw : ∀ e z : ℕ, ∃ c, e < 30 → z < 60 →
      costFunction ⟨6 * (e : ℝ) - 87, 6 * (z : ℝ) - 177, 1⟩ (h.dist e z) goal position velocity params
        closest_pt facing = some (distanceCost params (h.dist e z), c) := by
    intro e z
    exact ⟨_, fun _ _ => C28_other_costs_exact _ _ goal position velocity params closest_pt facing
      (by norm_num) hg⟩
  choose c hc0 using hraw
  have hc : ∀ e z, e < 30 → z < 60 →
      rawCost h goal position velocity params closest_pt facing e z =
        some (distanceCost params (h.dist e z), c e z) := by
    intro e z h1 h2
    unfold rawCost
    rw [getDist_nat (by omega) (by omega), Option.bind_some, hpol]
    exact hc0 e z h1 h2
  obtain ⟨m1, a1, a2⟩ := fillMatrix_spec 30 60 (by norm_num) stepSize stepSize_pos
    (fun e z => (rawCost h goal position velocity params closest_pt facing e z).map Prod.snd) c
    (fun e h1 z h2 => by rw [hc e z h1 h2]; rfl)
  obtain ⟨m2, b1, b2⟩ := fillMatrix_spec 30 60 (by norm_num) stepSize stepSize_pos
    (fun e z => (rawCost h goal position velocity params closest_pt facing e z).map Prod.fst)
    (fun e z => distanceCost params (h.dist e z))
    (fun e h1 z h2 => by rw [hc e z h1 h2]; rfl)
  have nn1 : withoutNaN 30 60 m1 = some fun e z => (m1 e z).getD 0 := by
    unfold withoutNaN; rw [if_pos]
    intro e h1 z h2; obtain ⟨v, hv, -⟩ := a2 e h1 z h2; rw [hv]; rfl
  have nn2 : withoutNaN 30 60 m2 = some fun e z => (m2 e z).getD 0 := by
    unfold withoutNaN; rw [if_pos]
    intro e h1 z h2; obtain ⟨v, hv, -⟩ := b2 e h1 z h2; rw [hv]; rfl
  have hn : ⌈margin / ((6 : ℕ) : ℝ)⌉.toNat ≤ 30 := by
    have : ⌈margin / ((6 : ℕ) : ℝ)⌉ ≤ 30 := Int.ceil_le.2 (by
      push_cast; rw [div_le_iff₀ (by norm_num)]; linarith)
    omega
  obtain ⟨s, s1, s2⟩ := C30_smoothing (K := ℝ) (fun e z => (m2 e z).getD 0) 30 60
    ⌈margin / ((6 : ℕ) : ℝ)⌉.toNat (by norm_num) (by norm_num) hn (by omega)
  refine ⟨facing, fun e z => (m1 e z).getD 0 + s e z, c, hf, fun e h1 z h2 => hc0 e z h1 h2, ?_, ?_⟩
  · unfold getCostMatrix
    rw [hf, Option.bind_some]
    dsimp only
    rw [show GRID_LENGTH_E = 30 from rfl, show GRID_LENGTH_Z = 60 from rfl, a1, Option.bind_some, b1,
      Option.bind_some, nn1, Option.bind_some, nn2, Option.bind_some]
    rw [show (ALPHA_RES : ℕ) = 6 from rfl, s1]
    rfl
  · intro n hnn e h1 z h2
    have hn' : ⌈margin / ((6 : ℕ) : ℝ)⌉.toNat = n := by rw [hnn]; norm_num
    obtain ⟨v, hv, -, -, hv4⟩ := a2 e h1 z h2
    rw [hn'] at s2 hn
    dsimp only
    rw [hv, Option.getD_some, hv4, s2 e h1 z h2]
    congr 1
    refine Finset.sum_congr rfl fun b hb => Finset.sum_congr rfl fun a ha => ?_
    rw [Finset.mem_range] at ha hb
    congr 1
    unfold sphereGet
    have r1 := foldRow_in (rows := 30) (i := (e : ℤ) + a - n) (by omega) (by omega)
    have r2 := foldCol_in 30 60 ((e : ℤ) + a - n) ((z : ℤ) + b - n) (by norm_num)
    obtain ⟨w, hw, -, -, hw4⟩ := b2 (foldRow 30 ((e : ℤ) + a - n)).toNat (by omega)
      (foldCol 30 60 ((e : ℤ) + a - n) ((z : ℤ) + b - n)).toNat (by omega)
    dsimp only
    rw [hw, Option.getD_some, hw4]

/-- In particular, within ±45° of the horizon every obstacle is charged in full. -/
theorem C29_horizon_obstacles_charged (h : Histogram ℝ) (he : h.eDim = 30) (hz : h.zDim = 60)
    (goal position velocity : V3 ℝ) (params : CostParams) (margin : ℝ) (closest_pt : V3 ℝ)
    (maxr minr : ℝ) (hg : goal ≠ position) (p1 : 0 ≤ params.yaw) (p2 : 0 ≤ params.pitch)
    (p3 : 0 ≤ params.velocity) (hm : margin ≤ 180) :
    ∃ M, getCostMatrix h goal position velocity params margin closest_pt maxr minr = some M ∧
      ∀ e, 7 ≤ e → e ≤ 22 → ∀ z < 60, distanceCost params (h.dist e z) ≤ M e z := by
  obtain ⟨M, h1, h2⟩ := C29_cost_matrix h he hz goal position velocity params margin closest_pt
    maxr minr hg p1 p2 p3 hm
  refine ⟨M, h1, ?_⟩
  intro e e1 e2 z hz'
  exact (h2 e (by omega) z hz').2 (by rw [stepSize_one e e1 e2]; exact one_dvd _)

end Avoidance
