import Mathlib.Tactic.Ring
import Mathlib.Tactic.Linarith
import Mathlib.Tactic.FieldSimp
import Mathlib.Tactic.Positivity
import Mathlib.Tactic.NormNum
import Mathlib.Algebra.Order.BigOperators.Group.List
import Verif.Slp

/-!
# The landing state machine: theorems C47 – C51, first part (patches, single iterations)
-/

namespace Avoidance
namespace Landing

set_option linter.unusedSectionVars false

variable {K : Type*} [Field K] [LinearOrder K] [IsStrictOrderedRing K] [FloorRing K]

/-! ## Specification -/

/-- The round landing patch around the cell `(a, b)`: the cells whose centre is closer than `s + ½` cells. -/
def InPatch (s : ℕ) (a b i j : ℤ) : Prop := 4 * ((i - a) ^ 2 + (j - b) ^ 2) < (2 * (s : ℤ) + 1) ^ 2

/-- Every cell of the patch around `(a, b)` exists and passed the evaluation. -/
def PatchLandable (w : Slp K) (a b : ℤ) : Prop :=
  ∀ i j, InPatch w.smoothing_land_cell a b i j → InGrid w.hyst_n i j ∧ w.result i j = 1

/-- The mask belongs to some patch size. -/
def MaskOk (w : Slp K) : Prop := ∃ m : ℕ, w.mask_n = 2 * m + 1 ∧ w.mask = maskOf m

/-- Evaluation results are 0 or 1. -/
def ResultOk (w : Slp K) : Prop := ∀ i j, w.result i j = 0 ∨ w.result i j = 1

/-! ## Patches -/

theorem mem_indices {r c : ℕ} {ij : ℕ × ℕ} : ij ∈ indices r c ↔ ij.1 < r ∧ ij.2 < c := by
  unfold indices
  rw [List.mem_flatMap]
  constructor
  · rintro ⟨a, ha, h⟩
    obtain ⟨b, hb, rfl⟩ := List.mem_map.mp h
    exact ⟨List.mem_range.mp ha, List.mem_range.mp hb⟩
  · rintro ⟨h1, h2⟩
    exact ⟨ij.1, List.mem_range.mpr h1, List.mem_map.mpr ⟨ij.2, List.mem_range.mpr h2, rfl⟩⟩

theorem sum_eq_iff_of_le {A : Type*} (l : List A) (f g : A → ℤ) (h : ∀ a ∈ l, f a ≤ g a) :
    (l.map f).sum = (l.map g).sum ↔ ∀ a ∈ l, f a = g a := by
  induction l with
  | nil => simp
  | cons a l ih =>
    have hl : ∀ x ∈ l, f x ≤ g x := fun x hx => h x (List.mem_cons_of_mem _ hx)
    have h1 : (l.map f).sum ≤ (l.map g).sum := List.sum_le_sum hl
    have h2 := h a List.mem_cons_self
    simp only [List.map_cons, List.sum_cons, List.mem_cons, forall_eq_or_imp]
    rw [← ih hl]
    constructor
    · intro he; constructor <;> omega
    · rintro ⟨e1, e2⟩; omega

theorem maskOf_one {s : ℕ} {i j : ℤ} : maskOf s i j = 1 ↔ InPatch s s s i j := by
  unfold maskOf InPatch
  by_cases h : 4 * ((i - s) ^ 2 + (j - s) ^ 2) < (2 * (s : ℤ) + 1) ^ 2
  · rw [if_pos h]; exact ⟨fun _ => h, fun _ => rfl⟩
  · rw [if_neg h]; exact ⟨fun h0 => by omega, fun h0 => absurd h0 h⟩

theorem maskOf_zero_one (s : ℕ) (i j : ℤ) : maskOf s i j = 0 ∨ maskOf s i j = 1 := by
  unfold maskOf
  by_cases h : 4 * ((i - s) ^ 2 + (j - s) ^ 2) < (2 * (s : ℤ) + 1) ^ 2
  · rw [if_pos h]; exact Or.inr rfl
  · rw [if_neg h]; exact Or.inl rfl

theorem inPatch_bounds {s : ℕ} {a b i j : ℤ} (h : InPatch s a b i j) :
    a - s ≤ i ∧ i ≤ a + s ∧ b - s ≤ j ∧ j ≤ b + s := by
  unfold InPatch at h
  have h1 : (2 * (i - a)) ^ 2 < (2 * (s : ℤ) + 1) ^ 2 := by nlinarith [sq_nonneg (j - b)]
  have h2 : (2 * (j - b)) ^ 2 < (2 * (s : ℤ) + 1) ^ 2 := by nlinarith [sq_nonneg (i - a)]
  have a1 := abs_lt_of_sq_lt_sq h1 (by positivity)
  have a2 := abs_lt_of_sq_lt_sq h2 (by positivity)
  rw [abs_lt] at a1 a2
  omega

/-- **C48, exactness of one patch.** If the block of the patch lies inside the grid, the evaluation says yes exactly
if every cell of the round patch passed; otherwise the access is out of range. -/
theorem C48_patch (w : Slp K) (hm : w.mask_n = 2 * w.smoothing_land_cell + 1) (hk : w.mask = maskOf w.smoothing_land_cell)
    (hr : ResultOk w) (c : ℤ × ℤ) :
    (evaluatePatch w c = some true ↔
      (0 ≤ c.1 ∧ 0 ≤ c.2 ∧ c.1 + w.mask_n ≤ w.hyst_n ∧ c.2 + w.mask_n ≤ w.hyst_n) ∧
      PatchLandable w (c.1 + w.smoothing_land_cell) (c.2 + w.smoothing_land_cell)) ∧
    (evaluatePatch w c = none ↔ ¬ (0 ≤ c.1 ∧ 0 ≤ c.2 ∧ c.1 + w.mask_n ≤ w.hyst_n ∧ c.2 + w.mask_n ≤ w.hyst_n)) := by
  unfold evaluatePatch
  by_cases hb : 0 ≤ c.1 ∧ 0 ≤ c.2 ∧ c.1 + (w.mask_n : ℤ) ≤ w.hyst_n ∧ c.2 + (w.mask_n : ℤ) ≤ w.hyst_n
  · rw [if_pos hb]
    refine ⟨?_, ⟨fun h => by simp at h, fun h => absurd hb h⟩⟩
    rw [Option.some_inj, decide_eq_true_iff, sum_eq_iff_of_le]
    · constructor
      · intro h
        refine ⟨hb, fun i j hp => ?_⟩
        have hbd := inPatch_bounds hp
        have hI : InGrid w.hyst_n i j := by unfold InGrid; omega
        refine ⟨hI, ?_⟩
        have hmem : ((i - c.1).toNat, (j - c.2).toNat) ∈ indices w.mask_n w.mask_n := by
          rw [mem_indices]; constructor <;> dsimp only <;> omega
        have e := h _ hmem
        dsimp only at e
        rw [Int.toNat_of_nonneg (by omega), Int.toNat_of_nonneg (by omega), hk,
          maskOf_one.mpr (by unfold InPatch at hp ⊢; convert hp using 4 <;> ring)] at e
        rw [show c.1 + (i - c.1) = i by ring, show c.2 + (j - c.2) = j by ring] at e
        omega
      · rintro ⟨_, h⟩ ij hij
        rcases maskOf_zero_one w.smoothing_land_cell ij.1 ij.2 with h0 | h0
        · rw [hk, h0, mul_zero]
        · rw [hk, h0, mul_one]
          apply (h _ _ _).2
          have := maskOf_one.mp h0
          unfold InPatch at this ⊢
          convert this using 4 <;> ring
    · intro ij _
      rcases maskOf_zero_one w.smoothing_land_cell ij.1 ij.2 with h0 | h0
      · rw [hk, h0, mul_zero]
      · rw [hk, h0, mul_one]
        rcases hr (c.1 + ij.1) (c.2 + ij.2) with h1 | h1 <;> omega
  · rw [if_neg hb]
    exact ⟨⟨fun h => by simp at h, fun h => absurd h.1 hb⟩, ⟨fun _ => hb, fun _ => rfl⟩⟩

/-- Each patch contains at least its centre. -/
theorem inPatch_centre (s : ℕ) (a b : ℤ) : InPatch s a b a b := by
  unfold InPatch
  simp only [sub_self]
  positivity

/-! ## The search -/

theorem searchOffsets_mem (n s : ℕ) (hn : 2 * s + 1 ≤ n) (c : ℤ × ℤ) :
    c ∈ searchOffsets n s ↔ ∃ i : ℕ, 1 ≤ i ∧ i < n / 2 - s ∧ ∃ d ∈ explorationPattern,
      c = (((n / 2 : ℕ) : ℤ) + d.1 * i - s, ((n / 2 : ℕ) : ℤ) + d.2 * i - s) := by
  unfold searchOffsets stride
  dsimp only
  have e : ((1 : ℤ) + ((n : ℤ) - (2 * s + 1)).tdiv 1).tdiv 2 = ((n / 2 - s : ℕ) : ℤ) := by
    rw [Int.tdiv_one, show (1 : ℤ) + ((n : ℤ) - (2 * s + 1)) = ((n - 2 * s : ℕ) : ℤ) by omega]
    rw [show ((2 : ℤ)) = ((2 : ℕ) : ℤ) by rfl, ← Int.ofNat_tdiv]
    congr 1
    omega
  rw [e, Int.toNat_natCast, List.mem_flatMap]
  constructor
  · rintro ⟨i, hi, h⟩
    rw [List.mem_range] at hi
    by_cases h0 : i = 0
    · rw [if_pos h0] at h; simp at h
    · rw [if_neg h0] at h
      obtain ⟨d, hd, rfl⟩ := List.mem_map.mp h
      exact ⟨i, by omega, hi, d, hd, by simp⟩
  · rintro ⟨i, h1, h2, d, hd, rfl⟩
    refine ⟨i, List.mem_range.mpr h2, ?_⟩
    rw [if_neg (by omega)]
    exact List.mem_map.mpr ⟨d, hd, by simp⟩

theorem pattern_bounds {d : ℤ × ℤ} (h : d ∈ explorationPattern) : -1 ≤ d.1 ∧ d.1 ≤ 1 ∧ -1 ≤ d.2 ∧ d.2 ≤ 1 := by
  revert d
  decide

theorem corner_in_range (n s i : ℕ) (hn : 2 * s + 1 ≤ n) (hi : i < n / 2 - s) (x : ℤ) (h1 : -1 ≤ x) (h2 : x ≤ 1) :
    0 ≤ ((n / 2 : ℕ) : ℤ) + x * i - s ∧ ((n / 2 : ℕ) : ℤ) + x * i - s + (2 * s + 1 : ℕ) ≤ n := by
  have a1 : -(i : ℤ) ≤ x * i := by nlinarith [Int.natCast_nonneg i]
  have a2 : x * (i : ℤ) ≤ i := by nlinarith [Int.natCast_nonneg i]
  omega

theorem findPatch_spec (w : Slp K) (l : List (ℤ × ℤ)) (h : ∀ c ∈ l, evaluatePatch w c ≠ none) :
    ∃ r, findPatch w l = some r ∧ (∀ c, r = some c → c ∈ l ∧ evaluatePatch w c = some true) ∧
      (r = none → ∀ c ∈ l, evaluatePatch w c = some false) := by
  induction l with
  | nil => exact ⟨none, rfl, fun c hc => (by cases hc), fun _ c hc => (by cases hc)⟩
  | cons c cs ih =>
    obtain ⟨r, e, h1, h2⟩ := ih (fun x hx => h x (List.mem_cons_of_mem _ hx))
    have hc := h c List.mem_cons_self
    unfold findPatch
    match he : evaluatePatch w c with
    | none => exact absurd he hc
    | some true =>
      refine ⟨some c, rfl, fun x hx => ?_, fun hx => by cases hx⟩
      cases hx
      exact ⟨List.mem_cons_self, he⟩
    | some false =>
      refine ⟨r, by simpa using e, fun x hx => ?_, fun hx x hxl => ?_⟩
      · exact ⟨List.mem_cons_of_mem _ (h1 x hx).1, (h1 x hx).2⟩
      · rcases List.mem_cons.mp hxl with rfl | hxl
        · exact he
        · exact h2 hx x hxl

/-- A generator whose matrices have the sizes `updateSLPState` gives them. -/
structure Consistent (w : Slp K) : Prop where
  mask_n : w.mask_n = 2 * w.smoothing_land_cell + 1
  mask : w.mask = maskOf w.smoothing_land_cell
  hyst_n : w.hyst_n = w.grid.n

/-- **C48.** If the grid has at least as many rows as the patch, grid evaluation is free of out-of-range accesses. It
goes to the landing site exactly if the central patch, or one at a distance of `1, ..., n/2 - s - 1` cells in one of the
eight directions, consists of cells that all passed; otherwise it goes on exploring. -/
theorem C48_evaluation (w : Slp K) (hc : Consistent w) (hr : ResultOk w) (hn : 2 * w.smoothing_land_cell + 1 ≤ w.grid.n) :
    ∃ t w', runEvaluateGrid w = some (t, w') ∧ (t = .NEXT2 ∨ t = .NEXT1) ∧ w'.decision_taken = true ∧
      (w'.can_land = true ↔ t = .NEXT2) ∧
      (t = .NEXT2 ↔ PatchLandable w ((w.grid.n / 2 : ℕ) : ℤ) ((w.grid.n / 2 : ℕ) : ℤ) ∨
        ∃ i : ℕ, 1 ≤ i ∧ i < w.grid.n / 2 - w.smoothing_land_cell ∧ ∃ d ∈ explorationPattern,
          PatchLandable w (((w.grid.n / 2 : ℕ) : ℤ) + d.1 * i) (((w.grid.n / 2 : ℕ) : ℤ) + d.2 * i)) := by
  unfold runEvaluateGrid
  generalize hu : evaluatePrepare w = u
  unfold evaluateDecide
  have ug : u.grid = w.grid := by rw [← hu]; rfl
  have us : u.smoothing_land_cell = w.smoothing_land_cell := by rw [← hu]; rfl
  have um : u.mask_n = w.mask_n := by rw [← hu]; rfl
  have uk : u.mask = w.mask := by rw [← hu]; rfl
  have uh : u.hyst_n = w.hyst_n := by rw [← hu]; rfl
  have ur : u.result = w.result := by rw [← hu]; rfl
  have uok : ResultOk u := by unfold ResultOk; rw [ur]; exact hr
  have key : ∀ a b, PatchLandable u a b ↔ PatchLandable w a b := by
    intro a b; unfold PatchLandable; rw [us, uh, ur]
  have P := fun c => C48_patch u (by rw [um, us]; exact hc.mask_n) (by rw [uk, us]; exact hc.mask) uok c
  have hcen : 0 ≤ ((u.grid.n / 2 : ℕ) : ℤ) - u.smoothing_land_cell ∧ 0 ≤ ((u.grid.n / 2 : ℕ) : ℤ) - u.smoothing_land_cell ∧
      ((u.grid.n / 2 : ℕ) : ℤ) - u.smoothing_land_cell + u.mask_n ≤ u.hyst_n ∧
      ((u.grid.n / 2 : ℕ) : ℤ) - u.smoothing_land_cell + u.mask_n ≤ u.hyst_n := by
    have h1 := hc.mask_n
    have h2 := hc.hyst_n
    rw [ug, us, um, uh]
    omega
  have hnn : evaluatePatch u (((u.grid.n / 2 : ℕ) : ℤ) - u.smoothing_land_cell, ((u.grid.n / 2 : ℕ) : ℤ) - u.smoothing_land_cell) ≠ none :=
    fun h => ((P _).2.mp h) hcen
  have hall : ∀ c ∈ searchOffsets u.grid.n u.smoothing_land_cell, evaluatePatch u c ≠ none := by
    intro c hcm h
    rw [searchOffsets_mem _ _ (by rw [ug, us]; exact hn)] at hcm
    obtain ⟨i, h1, h2, d, hd, rfl⟩ := hcm
    have hb := pattern_bounds hd
    have r1 := corner_in_range u.grid.n u.smoothing_land_cell i (by rw [ug, us]; exact hn) h2 d.1 hb.1 hb.2.1
    have r2 := corner_in_range u.grid.n u.smoothing_land_cell i (by rw [ug, us]; exact hn) h2 d.2 hb.2.2.1 hb.2.2.2
    apply (P _).2.mp h
    rw [um, hc.mask_n, uh, hc.hyst_n]
    rw [ug, us] at r1 r2
    rw [ug, us]
    exact ⟨r1.1, r2.1, r1.2, r2.2⟩
  obtain ⟨r, er, hr1, hr2⟩ := findPatch_spec u _ hall
  match hb : evaluatePatch u (((u.grid.n / 2 : ℕ) : ℤ) - u.smoothing_land_cell, ((u.grid.n / 2 : ℕ) : ℤ) - u.smoothing_land_cell) with
  | none => exact absurd hb hnn
  | some true =>
    refine ⟨_, _, rfl, Or.inl rfl, rfl, by simp, ?_⟩
    have := ((P _).1.mp hb).2
    simp only [sub_add_cancel] at this
    rw [key, ug] at this
    simp only [true_iff]
    exact Or.inl this
  | some false =>
    have hcentre : ¬ PatchLandable w ((w.grid.n / 2 : ℕ) : ℤ) ((w.grid.n / 2 : ℕ) : ℤ) := by
      intro hp
      have : evaluatePatch u (((u.grid.n / 2 : ℕ) : ℤ) - u.smoothing_land_cell, ((u.grid.n / 2 : ℕ) : ℤ) - u.smoothing_land_cell) = some true := by
        rw [(P _).1]
        refine ⟨hcen, ?_⟩
        simp only [sub_add_cancel]
        rw [key, ug]
        exact hp
      rw [hb] at this
      cases this
    simp only [Option.bind_some, Bool.false_eq_true, if_false, er, Option.map_some]
    match r with
    | some c =>
      refine ⟨_, _, rfl, Or.inl rfl, rfl, by simp, ?_⟩
      simp only [true_iff]
      obtain ⟨hm, ht⟩ := hr1 c rfl
      rw [searchOffsets_mem _ _ (by rw [ug, us]; exact hn)] at hm
      obtain ⟨i, h1, h2, d, hd, rfl⟩ := hm
      have := ((P _).1.mp ht).2
      simp only [sub_add_cancel] at this
      rw [key, ug] at this
      rw [ug, us] at h2
      exact Or.inr ⟨i, h1, h2, d, hd, this⟩
    | none =>
      refine ⟨_, _, rfl, Or.inr rfl, rfl, by simp, ?_⟩
      simp only [reduceCtorEq, false_iff, not_or]
      refine ⟨hcentre, ?_⟩
      rintro ⟨i, h1, h2, d, hd, hp⟩
      have hb2 := pattern_bounds hd
      have r1 := corner_in_range w.grid.n w.smoothing_land_cell i hn h2 d.1 hb2.1 hb2.2.1
      have r2 := corner_in_range w.grid.n w.smoothing_land_cell i hn h2 d.2 hb2.2.2.1 hb2.2.2.2
      have hm : (((u.grid.n / 2 : ℕ) : ℤ) + d.1 * i - u.smoothing_land_cell, ((u.grid.n / 2 : ℕ) : ℤ) + d.2 * i - u.smoothing_land_cell) ∈
          searchOffsets u.grid.n u.smoothing_land_cell := by
        rw [searchOffsets_mem _ _ (by rw [ug, us]; exact hn)]
        exact ⟨i, h1, by rw [ug, us]; exact h2, d, hd, rfl⟩
      have hf := hr2 rfl _ hm
      have ht : evaluatePatch u (((u.grid.n / 2 : ℕ) : ℤ) + d.1 * i - u.smoothing_land_cell, ((u.grid.n / 2 : ℕ) : ℤ) + d.2 * i - u.smoothing_land_cell) = some true := by
        rw [(P _).1]
        simp only [sub_add_cancel]
        rw [key, ug, um, hc.mask_n, uh, hc.hyst_n, us]
        exact ⟨⟨r1.1, r2.1, r1.2, r2.2⟩, hp⟩
      rw [hf] at ht
      cases ht

/-- **C48 (finding).** If the grid has fewer rows than the patch (possible with permitted parameters, and with the
default patch on a grid of 10 cells), grid evaluation reads outside the matrix. -/
theorem C48_grid_too_small (w : Slp K) (hc : Consistent w) (hn : w.grid.n < 2 * w.smoothing_land_cell + 1) :
    runEvaluateGrid w = none := by
  unfold runEvaluateGrid
  generalize hu : evaluatePrepare w = u
  unfold evaluateDecide
  have ug : u.grid = w.grid := by rw [← hu]; rfl
  have us : u.smoothing_land_cell = w.smoothing_land_cell := by rw [← hu]; rfl
  have um : u.mask_n = w.mask_n := by rw [← hu]; rfl
  have uh : u.hyst_n = w.hyst_n := by rw [← hu]; rfl
  have : evaluatePatch u (((u.grid.n / 2 : ℕ) : ℤ) - u.smoothing_land_cell, ((u.grid.n / 2 : ℕ) : ℤ) - u.smoothing_land_cell) = none := by
    unfold evaluatePatch
    rw [if_neg]
    dsimp only
    rw [ug, us, um, uh, hc.mask_n, hc.hyst_n]
    omega
  rw [this]
  rfl

end Landing
end Avoidance
