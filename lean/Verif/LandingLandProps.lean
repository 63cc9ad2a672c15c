import Mathlib.Algebra.BigOperators.Intervals
import Mathlib.Algebra.Order.BigOperators.Group.Finset
import Mathlib.Order.Interval.Finset.Nat
import Mathlib.Data.Int.Interval
import Verif.LandingGridProps

/-!
# Landable cells (C45) and temporal filtering (C46)
-/

namespace Avoidance
namespace Landing

set_option linter.unusedSectionVars false

variable {K : Type*} [Field K] [LinearOrder K] [IsStrictOrderedRing K] [FloorRing K]

/-! ## Specification -/

/-- The `(2p+1) × (2p+1)` cells around `(i, j)`, whether they exist or not. -/
noncomputable def block (p i j : ℤ) : Finset (ℤ × ℤ) := Finset.Icc (i - p) (i + p) ×ˢ Finset.Icc (j - p) (j + p)

/-- The height the smoothing uses for a cell: cells outside the grid count as height 0. -/
def heightAt (g : Grid K) (a b : ℤ) : K := if InGrid g.n a b then g.mean a b else 0

/-- A dense and flat cell. -/
def DenseFlat (s : Planner ℝ) (a b : ℤ) : Prop :=
  s.n_points_thr ≤ s.grid.counter a b ∧ Real.sqrt (s.grid.variance a b) ≤ s.std_dev_thr

/-! ## C45 -/

theorem sqrtGt_iff (v t : ℝ) (hv : 0 ≤ v) : sqrtGt v t ↔ Real.sqrt v > t := by
  unfold sqrtGt
  constructor
  · rintro ⟨_, h | h⟩
    · exact lt_of_lt_of_le h (Real.sqrt_nonneg v)
    · by_cases ht : t < 0
      · exact lt_of_lt_of_le ht (Real.sqrt_nonneg v)
      · exact Real.lt_sqrt_of_sq_lt (by rw [pow_two]; exact h)
  · intro h
    refine ⟨hv, ?_⟩
    by_cases ht : t < 0
    · exact Or.inl ht
    · refine Or.inr ?_
      rw [gt_iff_lt, Real.lt_sqrt (not_lt.mp ht), pow_two] at h
      exact h

theorem cellLand_zero_one (s : Planner K) (g : Grid K) (i j : ℤ) : cellLand s g i j = 0 ∨ cellLand s g i j = 1 := by
  unfold cellLand
  by_cases h : (g.counter i j : K) < s.n_points_thr ∨ sqrtGt (g.variance i j) s.std_dev_thr
  · rw [if_pos h]; exact Or.inl rfl
  · rw [if_neg h]; exact Or.inr rfl

theorem cellLand_iff (s : Planner ℝ) (i j : ℤ) (hv : 0 ≤ s.grid.variance i j) :
    cellLand s s.grid i j = 1 ↔ DenseFlat s i j := by
  unfold cellLand DenseFlat
  have e := sqrtGt_iff (s.grid.variance i j) s.std_dev_thr hv
  by_cases h : (s.grid.counter i j : ℝ) < s.n_points_thr ∨ sqrtGt (s.grid.variance i j) s.std_dev_thr
  · rw [if_pos h]
    constructor
    · intro h0; exact absurd h0 (by norm_num)
    · rintro ⟨h1, h2⟩
      rcases h with h | h
      · exact absurd h (not_lt.mpr h1)
      · exact absurd (e.mp h) (not_lt.mpr h2)
  · rw [if_neg h]
    rw [e] at h
    push Not at h
    exact ⟨fun _ => h, fun _ => rfl⟩

/-- **C45, no smoothing.** A cell is reported landable exactly if it has at least the required number of
points and its standard deviation is at most the threshold. -/
theorem C45_unsmoothed (s : Planner ℝ) (hp : s.n_lines_padding ≤ 0) (i j : ℤ) (hv : 0 ≤ s.grid.variance i j) :
    ((isLandingPossible s).grid.land i j = 1 ↔
      s.n_points_thr ≤ s.grid.counter i j ∧ Real.sqrt (s.grid.variance i j) ≤ s.std_dev_thr) ∧
    ((isLandingPossible s).grid.land i j = 0 ∨ (isLandingPossible s).grid.land i j = 1) := by
  unfold isLandingPossible
  dsimp only
  rw [if_neg (by omega)]
  exact ⟨cellLand_iff s i j hv, cellLand_zero_one s s.grid i j⟩

theorem sum_range_map (n : ℕ) (f : ℕ → ℤ) : ((List.range n).map f).sum = ∑ k ∈ Finset.range n, f k := by
  induction n with
  | zero => simp
  | succ n ih => rw [List.range_succ, List.map_append, List.sum_append, ih, Finset.sum_range_succ]; simp

theorem sum_shift (p c : ℤ) (f : ℤ → ℤ) :
    ∑ k ∈ Finset.range (2 * p + 1).toNat, f (c + ((k : ℤ) - p)) = ∑ a ∈ Finset.Icc (c - p) (c + p), f a := by
  apply Finset.sum_bij (fun (k : ℕ) _ => c + ((k : ℤ) - p))
  · intro k hk
    rw [Finset.mem_range] at hk
    rw [Finset.mem_Icc]
    omega
  · intro k _ k' _ h
    omega
  · intro a ha
    rw [Finset.mem_Icc] at ha
    refine ⟨(a - c + p).toNat, ?_, ?_⟩
    · rw [Finset.mem_range]; omega
    · omega
  · intro k _; rfl

theorem sum_flatMap {A : Type*} (l : List A) (f : A → List ℤ) : (l.flatMap f).sum = (l.map fun a => (f a).sum).sum := by
  induction l with
  | nil => rfl
  | cons a l ih => rw [List.flatMap_cons, List.sum_append, ih]; rfl

theorem sum_offsets (p i j : ℤ) (f : ℤ × ℤ → ℤ) :
    ((offsets p).map fun kt => f (i + kt.1, j + kt.2)).sum = ∑ c ∈ block p i j, f c := by
  unfold offsets block
  rw [List.map_flatMap, sum_flatMap]
  simp only [List.map_map]
  rw [sum_range_map]
  have : ∀ k : ℕ, ((List.range (2 * p + 1).toNat).map
      ((fun kt : ℤ × ℤ => f (i + kt.1, j + kt.2)) ∘ fun t : ℕ => ((k : ℤ) - p, (t : ℤ) - p))).sum =
      ∑ b ∈ Finset.Icc (j - p) (j + p), f (i + ((k : ℤ) - p), b) := by
    intro k
    rw [sum_range_map]
    exact sum_shift p j (fun b => f (i + ((k : ℤ) - p), b))
  simp only [this]
  rw [sum_shift p i (fun a => ∑ b ∈ Finset.Icc (j - p) (j + p), f (a, b)), ← Finset.sum_product']

theorem sum_offsets' (p i j : ℤ) (f : ℤ → ℤ → ℤ) :
    ((offsets p).map fun kt => f (i + kt.1) (j + kt.2)).sum = ∑ c ∈ block p i j, f c.1 c.2 :=
  sum_offsets p i j (fun c => f c.1 c.2)

theorem block_shift (p i j : ℤ) (f : ℤ × ℤ → ℤ) :
    ∑ c ∈ block p (i + p) (j + p), f c = ∑ c ∈ block p i j, f (c.1 + p, c.2 + p) := by
  apply Finset.sum_bij' (fun (c : ℤ × ℤ) _ => (c.1 - p, c.2 - p)) (fun (c : ℤ × ℤ) _ => (c.1 + p, c.2 + p))
  · intro c hc
    unfold block at *
    simp only [Finset.mem_product, Finset.mem_Icc] at *
    omega
  · intro c hc
    unfold block at *
    simp only [Finset.mem_product, Finset.mem_Icc] at *
    omega
  · intro c _; simp
  · intro c _; simp
  · intro c _; simp

theorem landCount_eq (s : Planner K) (g : Grid K) (p i j : ℤ) :
    landCount p (padded g.n p (cellLand s g)) (i + p) (j + p) =
      (((block p i j).filter fun c => InGrid g.n c.1 c.2 ∧ cellLand s g c.1 c.2 = 1).card : ℤ) := by
  unfold landCount
  rw [sum_offsets' p (i + p) (j + p), block_shift, Finset.card_filter]
  push_cast
  apply Finset.sum_congr rfl
  intro c _
  unfold padded
  rw [add_sub_cancel_right, add_sub_cancel_right]
  by_cases h : InGrid g.n c.1 c.2
  · rw [if_pos h]
    rcases cellLand_zero_one s g c.1 c.2 with h0 | h0
    · rw [h0, if_neg (by rintro ⟨_, h1⟩; omega)]
    · rw [h0, if_pos ⟨h, rfl⟩]
  · rw [if_neg h, if_neg (fun h' => h h'.1)]

theorem meanDiffCount_eq (g : Grid K) (p i j : ℤ) (thr : K) (hi : InGrid g.n i j) :
    meanDiffCount p (padded g.n p g.mean) thr (i + p) (j + p) =
      (((block p i j).filter fun c => |g.mean i j - heightAt g c.1 c.2| > thr).card : ℤ) := by
  unfold meanDiffCount
  rw [sum_offsets' p (i + p) (j + p) (fun a b => if |padded g.n p g.mean (i + p) (j + p) - padded g.n p g.mean a b| > thr then (1 : ℤ) else 0),
    block_shift, Finset.card_filter]
  push_cast
  apply Finset.sum_congr rfl
  intro c _
  unfold padded heightAt
  rw [add_sub_cancel_right, add_sub_cancel_right, add_sub_cancel_right, add_sub_cancel_right, if_pos hi]

theorem landSelect_one (m a : ℤ) (ha : 0 ≤ a) : landSelect m a = if a > m then 1 else 0 := by
  unfold landSelect
  dsimp only
  by_cases h : a ≤ m
  · rw [if_pos h, if_neg (by omega), if_neg (by omega)]
  · rw [if_neg h, if_pos (by omega), if_pos (by omega)]

theorem meanSelect_one (m a : ℤ) (ha : 0 ≤ a) : meanSelect m a = if 1 ≤ m ∧ a ≤ m then 1 else 0 := by
  unfold meanSelect
  dsimp only
  by_cases h : a ≤ m
  · rw [if_pos h]
    by_cases h1 : 1 ≤ m
    · rw [if_neg (by omega), if_pos ⟨h1, h⟩]
    · rw [if_pos (by omega), if_neg (fun h' => h1 h'.1)]
  · rw [if_neg h, if_pos (by omega), if_neg (fun h' => h h'.2)]

theorem smoothedLand_eq (s : Planner K) (g : Grid K) (i j : ℤ) (hi : InGrid g.n i j) :
    smoothedLand s g i j =
      if 1 ≤ s.max_n_mean_diff_cells ∧
        (((block s.n_lines_padding i j).filter fun c => |g.mean i j - heightAt g c.1 c.2| > s.mean_diff_thr).card : ℤ)
          ≤ s.max_n_mean_diff_cells ∧
        (((block s.n_lines_padding i j).filter fun c => InGrid g.n c.1 c.2 ∧ cellLand s g c.1 c.2 = 1).card : ℤ)
          > s.min_n_land_cells then 1 else 0 := by
  unfold smoothedLand
  dsimp only
  rw [landCount_eq, meanDiffCount_eq g _ i j _ hi, landSelect_one _ _ (by positivity), meanSelect_one _ _ (by positivity)]
  split_ifs <;> first | rfl | (exfalso; tauto)

/-- **C45, smoothing.** A cell of the grid is reported landable exactly if the limit on uneven neighbours is
at least 1, at most that many cells of its neighbourhood differ from it in mean height by more than the
threshold, and more than the required number of existing cells of its neighbourhood are dense and flat. -/
theorem C45_smoothed (s : Planner ℝ) (hp : 0 < s.n_lines_padding) (hv : ∀ a b, 0 ≤ s.grid.variance a b) (i j : ℤ)
    (hi : InGrid s.grid.n i j) :
    ((isLandingPossible s).grid.land i j = 1 ↔
      1 ≤ s.max_n_mean_diff_cells ∧
      (Nat.card {c : ℤ × ℤ // c ∈ block s.n_lines_padding i j ∧
        |s.grid.mean i j - heightAt s.grid c.1 c.2| > s.mean_diff_thr} : ℤ) ≤ s.max_n_mean_diff_cells ∧
      s.min_n_land_cells < (Nat.card {c : ℤ × ℤ // c ∈ block s.n_lines_padding i j ∧
        InGrid s.grid.n c.1 c.2 ∧ DenseFlat s c.1 c.2} : ℤ)) ∧
    ((isLandingPossible s).grid.land i j = 0 ∨ (isLandingPossible s).grid.land i j = 1) := by
  unfold isLandingPossible
  dsimp only
  rw [if_pos hp, smoothedLand_eq s s.grid i j hi]
  have c1 : Nat.card {c : ℤ × ℤ // c ∈ block s.n_lines_padding i j ∧
        |s.grid.mean i j - heightAt s.grid c.1 c.2| > s.mean_diff_thr} =
      ((block s.n_lines_padding i j).filter fun c => |s.grid.mean i j - heightAt s.grid c.1 c.2| > s.mean_diff_thr).card := by
    apply Nat.subtype_card
    intro c
    rw [Finset.mem_filter]
  have c2 : Nat.card {c : ℤ × ℤ // c ∈ block s.n_lines_padding i j ∧
        InGrid s.grid.n c.1 c.2 ∧ DenseFlat s c.1 c.2} =
      ((block s.n_lines_padding i j).filter fun c => InGrid s.grid.n c.1 c.2 ∧ cellLand s s.grid c.1 c.2 = 1).card := by
    apply Nat.subtype_card
    intro c
    rw [Finset.mem_filter, cellLand_iff s _ _ (hv _ _)]
  rw [c1, c2]
  split_ifs with h
  · exact ⟨⟨fun _ => h, fun _ => rfl⟩, Or.inr rfl⟩
  · exact ⟨⟨fun h0 => absurd h0 (by norm_num), fun h' => absurd h' h⟩, Or.inl rfl⟩

/-- The accesses of the smoothing loops stay inside the padded matrix. -/
theorem C45_padding_in_range (n : ℕ) (p i j k t : ℤ) (hi : p ≤ i ∧ i < n + 2 * p - p) (hj : p ≤ j ∧ j < n + 2 * p - p)
    (hk : -p ≤ k ∧ k ≤ p) (ht : -p ≤ t ∧ t ≤ p) :
    (0 ≤ i + k ∧ i + k < n + 2 * p) ∧ 0 ≤ j + t ∧ j + t < n + 2 * p := by omega

/-- **C45 (finding).** With the limit on uneven neighbours at 0 (allowed by the configuration), no cell is
ever landable, however flat the ground. -/
theorem C45_zero_limit_never_lands (s : Planner K) (hp : 0 < s.n_lines_padding) (hm : s.max_n_mean_diff_cells ≤ 0)
    (i j : ℤ) (hi : InGrid s.grid.n i j) : (isLandingPossible s).grid.land i j = 0 := by
  unfold isLandingPossible
  dsimp only
  rw [if_pos hp, smoothedLand_eq s s.grid i j hi, if_neg (by rintro ⟨h, _⟩; omega)]

theorem card_block (p i j : ℤ) : (block p i j).card = (2 * p + 1).toNat * (2 * p + 1).toNat := by
  unfold block
  rw [Finset.card_product, Int.card_Icc, Int.card_Icc]
  congr 2 <;> omega

/-- **C45 (finding).** If the required number of landable neighbours is not smaller than the size of the
neighbourhood (as in the built-in defaults, 9 of 9), no cell is ever landable. -/
theorem C45_too_many_required (s : Planner K) (hp : 0 < s.n_lines_padding)
    (hm : (2 * s.n_lines_padding + 1) ^ 2 ≤ s.min_n_land_cells)
    (i j : ℤ) (hi : InGrid s.grid.n i j) : (isLandingPossible s).grid.land i j = 0 := by
  unfold isLandingPossible
  dsimp only
  rw [if_pos hp, smoothedLand_eq s s.grid i j hi, if_neg]
  rintro ⟨_, _, h⟩
  have h1 := Finset.card_filter_le (block s.n_lines_padding i j)
    (fun c => InGrid s.grid.n c.1 c.2 ∧ cellLand s s.grid c.1 c.2 = 1)
  rw [card_block] at h1
  have h2 : (((2 * s.n_lines_padding + 1).toNat * (2 * s.n_lines_padding + 1).toNat : ℕ) : ℤ) = (2 * s.n_lines_padding + 1) ^ 2 := by
    push_cast
    rw [Int.toNat_of_nonneg (by omega)]
    ring
  have h3 : ((((block s.n_lines_padding i j).filter
    (fun c => InGrid s.grid.n c.1 c.2 ∧ cellLand s s.grid c.1 c.2 = 1)).card : ℕ) : ℤ) ≤
    (((2 * s.n_lines_padding + 1).toNat * (2 * s.n_lines_padding + 1).toNat : ℕ) : ℤ) := by exact_mod_cast h1
  omega

/-- A planner whose grid is given cell by cell. -/
def demo (n : ℕ) (mean : ℤ → ℤ → ℚ) (counter : ℤ → ℤ → ℤ) (n_points : ℚ) (max_d min_l : ℤ) : Planner ℚ :=
  ⟨⟨n, 1, n, 0, 0, n, n, mean, fun _ _ => 0, counter, fun _ _ => 0⟩, Grid.new n 1, ⟨n / 2, n / 2, 0⟩,
    n_points, 1 / 10, 3 / 10, 8 / 10, n, 1, 1, 1, max_d, min_l, false, 0, (0, 0)⟩

/-- **C45 (finding).** After smoothing, a cell without a single measured point can be landable: its own
count is not required, only that of its neighbours. -/
theorem C45_empty_cell_landable_witness :
    (demo 3 (fun _ _ => 0) (fun i j => if i = 1 ∧ j = 1 then 0 else 50) 10 2 7).grid.counter 1 1 = 0 ∧
    (isLandingPossible (demo 3 (fun _ _ => 0) (fun i j => if i = 1 ∧ j = 1 then 0 else 50) 10 2 7)).grid.land 1 1 = 1 := by
  decide +kernel

/-- **C45 (finding).** With the point threshold at 0 (allowed by the configuration) a grid without any
point is landable. -/
theorem C45_zero_points_witness :
    (isLandingPossible (demo 3 (fun _ _ => 0) (fun _ _ => 0) 0 2 7)).grid.land 1 1 = 1 := by decide +kernel

/-- **C45 (finding).** Cells outside the grid count as height 0: perfectly flat ground is landable up to the
border at height 0 and not at height 5. -/
theorem C45_border_depends_on_altitude_witness :
    (isLandingPossible (demo 3 (fun _ _ => 0) (fun _ _ => 50) 10 2 3)).grid.land 0 0 = 1 ∧
    (isLandingPossible (demo 3 (fun _ _ => 5) (fun _ _ => 50) 10 2 3)).grid.land 0 0 = 0 := by decide +kernel

/-- **C45, height.** For the cells whose neighbourhood is inside the grid the verdict does not depend on the
absolute height of the ground. -/
theorem C45_interior_height_invariant (s : Planner K) (h : K) (i j : ℤ) (hp : 0 < s.n_lines_padding)
    (hi : s.n_lines_padding ≤ i ∧ i + s.n_lines_padding < s.grid.n)
    (hj : s.n_lines_padding ≤ j ∧ j + s.n_lines_padding < s.grid.n) :
    (isLandingPossible { s with grid := { s.grid with mean := fun a b => s.grid.mean a b + h } }).grid.land i j =
    (isLandingPossible s).grid.land i j := by
  have hI : InGrid s.grid.n i j := by unfold InGrid; omega
  unfold isLandingPossible
  dsimp only
  rw [if_pos hp, if_pos hp, smoothedLand_eq s s.grid i j hI, smoothedLand_eq _ _ i j (by exact hI)]
  dsimp only
  congr 2
  congr 1
  · have : (block s.n_lines_padding i j).filter (fun c => |s.grid.mean i j + h -
          heightAt { s.grid with mean := fun a b => s.grid.mean a b + h } c.1 c.2| > s.mean_diff_thr) =
        (block s.n_lines_padding i j).filter (fun c => |s.grid.mean i j - heightAt s.grid c.1 c.2| > s.mean_diff_thr) := by
      apply Finset.filter_congr
      intro c hc
      unfold block at hc
      simp only [Finset.mem_product, Finset.mem_Icc] at hc
      have hcI : InGrid s.grid.n c.1 c.2 := by unfold InGrid; omega
      unfold heightAt
      dsimp only
      rw [if_pos hcI, if_pos hcI, add_sub_add_right_eq_sub]
    rw [this]

example : (isLandingPossible (demo 5 (fun _ _ => 0) (fun _ _ => 50) 10 2 8)).grid.land 2 2 = 1 ∧
    (isLandingPossible (demo 5 (fun i _ => if i = 3 then 1 else 0) (fun _ _ => 50) 10 2 8)).grid.land 2 2 = 0 := by
  decide +kernel

end Landing
end Avoidance
