import Verif.CostMatrix
import Verif.CostProps
import Verif.HistGenProps
import Mathlib.Algebra.BigOperators.Ring.Finset
import Mathlib.Algebra.BigOperators.Intervals
import Mathlib.Algebra.Order.BigOperators.Group.Finset

/-!
# C29 (filling the cost matrix), C30 (padding and smoothing)
-/

set_option linter.unusedSectionVars false

namespace Avoidance

theorem loopM_append {S A : Type*} (f : S → A → Option S) (l l' : List A) :
    ∀ s, loopM f s (l ++ l') = (loopM f s l).bind fun s' => loopM f s' l' := by
  induction l with
  | nil => intro s; rfl
  | cons a l ih =>
    intro s
    simp only [List.cons_append, loopM]
    cases f s a with
    | none => rfl
    | some s' => simp only [Option.bind_some]; exact ih s'

section
variable {K : Type*} [Field K] [LinearOrder K] [IsStrictOrderedRing K]

/-! ## Specification of the filled row -/

/-- The sampled column at or before `j`. -/
def prevSample (step j : ℕ) : ℕ := j / step * step
/-- Distance from there to the next sample, where the row closes up at column 0 ≙ column `N`. -/
def sampleGap (N step j : ℕ) : ℕ :=
  if prevSample step j + step < N then step else N - prevSample step j
/-- The column of that next sample. -/
def nextSample (N step j : ℕ) : ℕ :=
  if prevSample step j + step < N then prevSample step j + step else 0

/-! ## Lemmas -/

omit [Field K] [LinearOrder K] [IsStrictOrderedRing K] in
theorem writeAll (N : ℕ) (f : ℕ → Option K) (l : List ℕ) (hl : ∀ z ∈ l, z < N) :
    ∀ row, loopM (fun r z => writeRow N r z (f z)) row l =
      some (fun j => if j ∈ l then f j else row j) := by
  induction l with
  | nil => intro row; simp [loopM]
  | cons a l ih =>
    intro row
    have ha := hl a (by simp)
    simp only [loopM]
    rw [show writeRow N row a (f a) = some (Function.update row a (f a)) from if_pos ha,
      Option.bind_some, ih (fun z hz => hl z (by simp [hz]))]
    congr 1
    funext j
    by_cases h1 : j = a
    · subst h1; simp
    · simp [h1, Function.update_of_ne h1]

theorem fillSegment_eq (N last len : ℕ) (h : last + len ≤ N) (g : Option K) (row : ℕ → Option K) :
    fillSegment N last len g row =
      some (fun j => if last < j ∧ j < last + len then nanLin (row last) g (j - last) else row j) := by
  unfold fillSegment
  have key : ∀ k, k ≤ len - 1 →
      loopM (fun r i => writeRow N r (last + i) (nanLin (r last) g i)) row (List.range' 1 k) =
      some (fun j => if last < j ∧ j < last + (k + 1) then nanLin (row last) g (j - last) else row j) := by
    intro k
    induction k with
    | zero =>
      intro _; simp only [List.range'_zero, loopM]
      congr 1; funext j; rw [if_neg (by omega)]
    | succ k ih =>
      intro hk
      rw [List.range'_concat, loopM_append, ih (by omega), Option.bind_some]
      simp only [loopM]
      unfold writeRow
      rw [if_pos (by omega), Option.bind_some]
      congr 1
      funext j
      by_cases hj : j = last + (1 + 1 * k)
      · subst hj
        rw [Function.update_self, if_neg (by omega), if_pos (by omega)]
        congr 1; omega
      · rw [Function.update_of_ne hj]
        by_cases h1 : last < j ∧ j < last + (k + 1)
        · rw [if_pos h1, if_pos (by omega)]
        · rw [if_neg h1, if_neg (by omega)]
  rw [key (len - 1) le_rfl]
  congr 1; funext j
  by_cases h1 : last < j ∧ j < last + len
  · rw [if_pos h1, if_pos (by omega)]
  · rw [if_neg h1, if_neg (by omega)]

theorem mem_sampleIndices {N step : ℕ} (hs : 0 < step) {j : ℕ} :
    j ∈ sampleIndices N step ↔ j < N ∧ step ∣ j := by
  unfold sampleIndices
  simp only [List.mem_map, List.mem_range]
  constructor
  · rintro ⟨k, hk, rfl⟩
    refine ⟨?_, Dvd.intro_left k rfl⟩
    have := Nat.div_mul_le_self (N + step - 1) step
    have : (k + 1) * step ≤ (N + step - 1) / step * step := Nat.mul_le_mul_right _ hk
    have e : (k + 1) * step = k * step + step := by ring
    omega
  · rintro ⟨hj, k, rfl⟩
    refine ⟨k, ?_, by ring⟩
    rw [Nat.lt_iff_add_one_le, Nat.le_div_iff_mul_le hs]
    have e : (k + 1) * step = step * k + step := by ring
    omega

theorem prevSample_bounds {step : ℕ} (hs : 0 < step) (j : ℕ) :
    prevSample step j ≤ j ∧ j < prevSample step j + step ∧ step ∣ prevSample step j := by
  unfold prevSample
  have h1 := Nat.div_add_mod j step
  have h2 := Nat.mod_lt j hs
  rw [Nat.mul_comm] at h1
  refine ⟨by omega, by omega, Dvd.intro_left _ rfl⟩

theorem prevSample_unique {step s j : ℕ} (hd : step ∣ s) (h1 : s ≤ j) (h2 : j < s + step) :
    prevSample step j = s := by
  obtain ⟨k, rfl⟩ := hd
  unfold prevSample
  have : j / step = k := by
    rw [Nat.div_eq_iff (by omega)]
    have : step * k = k * step := by ring
    constructor <;> omega
  rw [this, Nat.mul_comm]

/-- The middle loop of `fillRow` after `k` segments. -/
theorem middle_loop (N step : ℕ) (hs : 0 < step) (base : ℕ → Option K) (k : ℕ)
    (hk : k = 0 ∨ k * step < N) :
    loopM (fun (s : (ℕ → Option K) × ℕ) z =>
        (fillSegment N s.2 step (nanGrad (s.1 s.2) (s.1 z) step) s.1).map fun r => (r, z))
      (base, 0) ((List.range' 1 k).map (· * step)) =
    some (fun j => if j < k * step ∧ ¬ step ∣ j then
        nanLin (base (prevSample step j)) (nanGrad (base (prevSample step j))
          (base (prevSample step j + step)) step) (j - prevSample step j)
      else base j, k * step) := by
  induction k with
  | zero => simp [loopM]
  | succ k ih =>
    have hk' : (k + 1) * step < N := by
      rcases hk with h | h
      · omega
      · exact h
    have e1 : (k + 1) * step = k * step + step := by ring
    rw [List.range'_concat, List.map_append, loopM_append, ih (by omega), Option.bind_some]
    simp only [List.map_cons, List.map_nil, loopM]
    have e2 : (1 + 1 * k) * step = (k + 1) * step := by ring
    rw [e2, fillSegment_eq N (k * step) step (by omega)]
    simp only [Option.map_some, Option.bind_some]
    congr 1
    refine Prod.ext ?_ rfl
    funext j
    dsimp only
    have hd : step ∣ k * step := Dvd.intro_left k rfl
    have hd' : step ∣ (k + 1) * step := Dvd.intro_left (k + 1) rfl
    rw [if_neg (show ¬ (k * step < k * step ∧ _) from fun h => lt_irrefl _ h.1),
      if_neg (show ¬ ((k + 1) * step < k * step ∧ _) from fun h => by omega)]
    by_cases hseg : k * step < j ∧ j < k * step + step
    · have hps : prevSample step j = k * step := prevSample_unique hd (by omega) (by omega)
      have hnd : ¬ step ∣ j := by
        rintro ⟨t, rfl⟩
        have h1 : k < t := by
          by_contra hc
          have : step * t ≤ step * k := Nat.mul_le_mul_left _ (by omega)
          have : step * k = k * step := by ring
          omega
        have : step * (k + 1) ≤ step * t := Nat.mul_le_mul_left _ h1
        have : step * (k + 1) = k * step + step := by ring
        omega
      rw [if_pos hseg, if_pos ⟨by omega, hnd⟩, hps, e1]
    · rw [if_neg hseg]
      by_cases h1 : j < k * step ∧ ¬ step ∣ j
      · rw [if_pos h1, if_pos ⟨by omega, h1.2⟩]
      · rw [if_neg h1, if_neg]
        rintro ⟨h2, h3⟩
        apply h1
        refine ⟨?_, h3⟩
        by_contra hc
        apply hseg
        refine ⟨?_, by omega⟩
        rcases Nat.lt_or_ge (k * step) j with h | h
        · exact h
        · exfalso; exact h3 ((by omega : j = k * step) ▸ hd)

/-- **C29.** For every row length, every step size and every cost, the row is filled without an
out-of-range write; every entry is the linear interpolation between the sampled column at or before
it and the next one, where the row closes up at column 0 — in particular sampled columns keep their
exact cost. -/
theorem C29_row_fill (N step : ℕ) (hN : 0 < N) (hs : 0 < step) (cost : ℕ → K) :
    ∃ row, fillRow N step (fun z => some (cost z)) = some row ∧ ∀ j < N,
      row j = some (cost (prevSample step j) +
        (cost (nextSample N step j) - cost (prevSample step j)) / (sampleGap N step j : K) *
          ((j - prevSample step j : ℕ) : K)) := by
  unfold fillRow
  rw [writeAll N _ _ (fun z hz => ((mem_sampleIndices hs).1 hz).1), Option.bind_some]
  by_cases h1 : step > 1
  · rw [if_pos h1]
    obtain ⟨m, hm⟩ : ∃ m, (N + step - 1) / step = m + 1 := by
      have : 1 ≤ (N + step - 1) / step := by
        rw [Nat.le_div_iff_mul_le hs]; omega
      exact ⟨_, (Nat.sub_add_cancel this).symm⟩
    have hm1 : m * step < N := by
      have := (mem_sampleIndices (N := N) hs (j := m * step)).1
        (by unfold sampleIndices; rw [hm]; exact List.mem_map.2 ⟨m, by simp, rfl⟩)
      exact this.1
    have hm2 : N ≤ m * step + step := by
      by_contra hc
      have : (m + 1) * step ∈ sampleIndices N step := (mem_sampleIndices hs).2
        ⟨by have : (m + 1) * step = m * step + step := by ring
            omega, Dvd.intro_left _ rfl⟩
      unfold sampleIndices at this
      rw [hm] at this
      obtain ⟨t, ht, he⟩ := List.mem_map.1 this
      have := Nat.eq_of_mul_eq_mul_right hs he
      simp at ht; omega
    have htail : (sampleIndices N step).tail = (List.range' 1 m).map (· * step) := by
      unfold sampleIndices
      rw [hm, List.range_succ_eq_map, List.map_cons, List.tail_cons, List.range'_eq_map_range,
        List.map_map, List.map_map]
      apply List.map_congr_left
      intro a _
      simp only [Function.comp_apply, Nat.succ_eq_add_one]
      ring
    rw [htail, middle_loop N step hs _ m (Or.inr hm1), Option.bind_some]
    dsimp only
    rw [fillSegment_eq N (m * step) (N - m * step) (by omega)]
    refine ⟨_, rfl, ?_⟩
    intro j hj
    have hdm : step ∣ m * step := Dvd.intro_left m rfl
    obtain ⟨p1, p2, p3⟩ := prevSample_bounds hs j
    have base : ∀ s, step ∣ s → s < N → (if s ∈ sampleIndices N step then some (cost s) else none) =
        some (cost s) := fun s hd hl => if_pos ((mem_sampleIndices hs).2 ⟨hl, hd⟩)
    rw [if_neg (show ¬ (m * step < m * step ∧ _) from fun h => lt_irrefl _ h.1),
      if_neg (show ¬ (0 < m * step ∧ ¬ step ∣ 0) from fun h => h.2 (dvd_zero _)),
      base _ hdm hm1, base 0 (dvd_zero _) hN]
    by_cases hdj : step ∣ j
    · have hpj : prevSample step j = j := prevSample_unique hdj le_rfl (by omega)
      have hnot : ¬ (m * step < j ∧ j < m * step + (N - m * step)) := by
        rintro ⟨a, b⟩
        obtain ⟨t, rfl⟩ := hdj
        have h2 : m < t := by
          by_contra hc
          have : step * t ≤ step * m := Nat.mul_le_mul_left _ (by omega)
          have : step * m = m * step := by ring
          omega
        have : step * (m + 1) ≤ step * t := Nat.mul_le_mul_left _ h2
        have : step * (m + 1) = m * step + step := by ring
        omega
      rw [if_neg hnot, if_neg (fun h => h.2 hdj), base j hdj hj, hpj]
      simp
    · by_cases hlast : m * step < j
      · have hpj : prevSample step j = m * step := prevSample_unique hdm hlast.le (by omega)
        rw [if_pos ⟨hlast, by omega⟩]
        unfold nextSample sampleGap
        rw [hpj, if_neg (by omega), if_neg (by omega)]
        simp [nanLin, nanGrad]
      · have hlt : j < m * step := by
          rcases Nat.lt_or_ge j (m * step) with h | h
          · exact h
          · exfalso; exact hdj ((by omega : j = m * step) ▸ hdm)
        have hnext : prevSample step j + step ≤ m * step := by
          obtain ⟨t, ht⟩ := p3
          rw [ht] at p1 ⊢
          have h2 : t < m := by
            by_contra hc
            have : step * m ≤ step * t := Nat.mul_le_mul_left _ (by omega)
            have : step * m = m * step := by ring
            omega
          have : step * (t + 1) ≤ step * m := Nat.mul_le_mul_left _ h2
          have e : step * (t + 1) = step * t + step := by ring
          have : step * m = m * step := by ring
          omega
        rw [if_neg (fun h => by omega), if_pos ⟨hlt, hdj⟩, base _ p3 (by omega),
          base _ (p3.add (dvd_refl _)) (by omega)]
        unfold nextSample sampleGap
        rw [if_pos (by omega), if_pos (by omega)]
        simp [nanLin, nanGrad]
  · rw [if_neg h1]
    have hs1 : step = 1 := by omega
    subst hs1
    refine ⟨_, rfl, ?_⟩
    intro j hj
    rw [if_pos ((mem_sampleIndices (by omega)).2 ⟨hj, one_dvd _⟩)]
    have : prevSample 1 j = j := by simp [prevSample]
    rw [this]; simp

/-- Every entry lies between the two sampled costs that enclose it. -/
theorem C29_between_samples (N step : ℕ) (hN : 0 < N) (hs : 0 < step) (cost : ℕ → K)
    (j : ℕ) (hj : j < N) :
    ∃ row v, fillRow N step (fun z => some (cost z)) = some row ∧ row j = some v ∧
      (step ∣ j → v = cost j) ∧
      min (cost (prevSample step j)) (cost (nextSample N step j)) ≤ v ∧
      v ≤ max (cost (prevSample step j)) (cost (nextSample N step j)) := by
  obtain ⟨row, h1, h2⟩ := C29_row_fill N step hN hs cost
  refine ⟨row, _, h1, h2 j hj, ?_⟩
  obtain ⟨p1, p2, -⟩ := prevSample_bounds hs j
  have hgap : j - prevSample step j < sampleGap N step j := by
    unfold sampleGap; split_ifs <;> omega
  have hdiv : step ∣ j → prevSample step j = j := fun h => prevSample_unique h le_rfl (by omega)
  refine ⟨?_, ?_⟩
  · intro h; rw [hdiv h]; simp
  generalize cost (prevSample step j) = a
  generalize cost (nextSample N step j) = b
  generalize j - prevSample step j = i at *
  generalize sampleGap N step j = n at *
  have hn : (0 : K) < (n : K) := by exact_mod_cast (by omega : 0 < n)
  have hi : (0 : K) ≤ (i : K) := Nat.cast_nonneg i
  have hin : (i : K) ≤ (n : K) := by exact_mod_cast hgap.le
  have e : a + (b - a) / (n : K) * (i : K) = a + (b - a) * ((i : K) / (n : K)) := by
    field_simp
  rw [e]
  have t0 : 0 ≤ (i : K) / (n : K) := div_nonneg hi hn.le
  have t1 : (i : K) / (n : K) ≤ 1 := by rw [div_le_one hn]; exact hin
  generalize (i : K) / (n : K) = t at *
  rcases le_total a b with hab | hab
  · rw [min_eq_left hab, max_eq_right hab]
    constructor <;> nlinarith
  · rw [min_eq_right hab, max_eq_left hab]
    constructor <;> nlinarith

omit [Field K] [LinearOrder K] [IsStrictOrderedRing K] in
theorem nextSample_lt {N step : ℕ} (hN : 0 < N) (j : ℕ) : nextSample N step j < N := by
  unfold nextSample; split_ifs <;> omega

/-- Limitation made explicit: what the histogram says about a column that is not sampled (at high
elevation most are not) has no influence on the costs. -/
theorem C29_unsampled_columns_ignored (N step : ℕ) (hN : 0 < N) (hs : 0 < step) (c c' : ℕ → K)
    (h : ∀ z, step ∣ z → c z = c' z) (j : ℕ) (hj : j < N) :
    ∃ row row', fillRow N step (fun z => some (c z)) = some row ∧
      fillRow N step (fun z => some (c' z)) = some row' ∧ row j = row' j := by
  obtain ⟨row, h1, h2⟩ := C29_row_fill N step hN hs c
  obtain ⟨row', h3, h4⟩ := C29_row_fill N step hN hs c'
  refine ⟨row, row', h1, h3, ?_⟩
  obtain ⟨-, -, p3⟩ := prevSample_bounds hs j
  have hn : step ∣ nextSample N step j := by
    unfold nextSample; split_ifs
    · exact p3.add (dvd_refl _)
    · exact dvd_zero _
  rw [h2 j hj, h4 j hj, h _ p3, h _ hn]

end

example : (fillRow 5 2 (fun z => some ((z : ℚ) * z))).map (fun r => (List.range 5).map r) =
    some [some 0, some 2, some 4, some 10, some 16] := by decide +kernel

end Avoidance
