import Mathlib.Tactic.Ring
import Mathlib.Tactic.Linarith
import Mathlib.Tactic.FieldSimp
import Mathlib.Tactic.Positivity
import Mathlib.Tactic.NormNum
import Mathlib.Analysis.SpecialFunctions.Sqrt
import Verif.LandingGrid

/-!
# The landing grid: theorems C43 – C46
-/

namespace Avoidance
namespace Landing

set_option linter.unusedSectionVars false

variable {K : Type*} [Field K] [LinearOrder K] [IsStrictOrderedRing K] [FloorRing K]

/-! ## Specification -/

/-- The number of rows the grid must have. -/
def Grid.Sized (g : Grid K) : Prop := 0 < g.cell_size ∧ 0 < g.grid_size ∧ g.n = ⌈g.grid_size / g.cell_size⌉.toNat

/-- The square of the grid in row `i` and column `j`. -/
def Grid.InSquare (g : Grid K) (i j : ℤ) (x y : K) : Prop :=
  g.min_x + i * g.cell_size ≤ x ∧ x < g.min_x + (i + 1) * g.cell_size ∧
  g.min_y + j * g.cell_size ≤ y ∧ y < g.min_y + (j + 1) * g.cell_size

instance (g : Grid K) (i j : ℤ) (x y : K) : Decidable (g.InSquare i j x y) := by unfold Grid.InSquare; infer_instance

/-- The heights of the points of a cloud that lie inside the grid limits and in the square `(i, j)`, in
the order of the cloud; points with a NaN coordinate do not count. -/
def Grid.heights (g : Grid K) (cloud : List (CloudPoint K)) (i j : ℤ) : List K :=
  cloud.filterMap fun p => match p.x, p.y, p.z with
    | some x, some y, some z => if g.isInsideGrid x y ∧ g.InSquare i j x y then some z else none
    | _, _, _ => none

/-- Arithmetic mean. -/
def avg (l : List K) : K := l.sum / l.length

/-- Population variance. -/
def popVar (l : List K) : K := (l.map fun z => (z - avg l) ^ 2).sum / l.length

/-! ## C43: indices -/

theorem floor_eq_iff_square {a x c : K} (hc : 0 < c) (i : ℤ) :
    ⌊(x - a) / c⌋ = i ↔ a + i * c ≤ x ∧ x < a + (i + 1) * c := by
  rw [Int.floor_eq_iff, le_div_iff₀ hc, div_lt_iff₀ hc]
  constructor
  · rintro ⟨h1, h2⟩; constructor <;> linarith
  · rintro ⟨h1, h2⟩; constructor <;> linarith

theorem idx_range {a x c s : K} (hc : 0 < c) (h1 : a < x) (h2 : x < a + s) :
    0 ≤ ⌊(x - a) / c⌋ ∧ ⌊(x - a) / c⌋ < ((⌈s / c⌉.toNat : ℕ) : ℤ) := by
  constructor
  · exact Int.floor_nonneg.mpr (div_nonneg (by linarith) hc.le)
  · have hlt : (x - a) / c < s / c := by rw [div_lt_div_iff_of_pos_right hc]; linarith
    have : ⌊(x - a) / c⌋ < ⌈s / c⌉ := by
      rw [Int.floor_lt]
      exact lt_of_lt_of_le hlt (Int.le_ceil _)
    omega

/-- **C43.** With the limits set around any vehicle position, every point accepted by the inside test is
mapped to existing indices, those of the square that contains it. -/
theorem C43_index_in_range (g : Grid K) (hg : g.Sized) (px py x y : K)
    (h : (g.setFilterLimits px py).isInsideGrid x y) :
    let g' := g.setFilterLimits px py
    InGrid g.n (g'.computeGridIndexes x y).1 (g'.computeGridIndexes x y).2 ∧
    g'.InSquare (g'.computeGridIndexes x y).1 (g'.computeGridIndexes x y).2 x y := by
  obtain ⟨hc, _, hn⟩ := hg
  unfold Grid.isInsideGrid Grid.setFilterLimits at h
  dsimp only at h
  obtain ⟨h1, h2, h3, h4⟩ := h
  have hx := idx_range (s := g.grid_size) hc h2 (by linarith)
  have hy := idx_range (s := g.grid_size) hc h4 (by linarith)
  unfold InGrid Grid.computeGridIndexes Grid.InSquare Grid.setFilterLimits
  dsimp only
  rw [hn]
  refine ⟨⟨hx.1, hx.2, hy.1, hy.2⟩, ?_⟩
  have a := (floor_eq_iff_square (a := px - g.grid_size / 2) (x := x) hc _).mp rfl
  have b := (floor_eq_iff_square (a := py - g.grid_size / 2) (x := y) hc _).mp rfl
  exact ⟨a.1, a.2, b.1, b.2⟩

/-- Each point is in one square only. -/
theorem C43_square_unique (g : Grid K) (hc : 0 < g.cell_size) (i j i' j' : ℤ) (x y : K)
    (h : g.InSquare i j x y) (h' : g.InSquare i' j' x y) : i = i' ∧ j = j' := by
  unfold Grid.InSquare at h h'
  refine ⟨?_, ?_⟩
  · rw [← (floor_eq_iff_square hc i).mpr ⟨h.1, h.2.1⟩, ← (floor_eq_iff_square hc i').mpr ⟨h'.1, h'.2.1⟩]
  · rw [← (floor_eq_iff_square hc j).mpr ⟨h.2.2.1, h.2.2.2⟩, ← (floor_eq_iff_square hc j').mpr ⟨h'.2.2.1, h'.2.2.2⟩]

/-- **C43, extent.** The grid is the open square of side `grid_size` centred on the vehicle: exactly its
points are accepted.  The square of index `(i, j)` starts `i`, `j` cells from the corner with the
smallest coordinates. -/
theorem C43_extent (g : Grid K) (px py x y : K) (i j : ℤ) :
    ((g.setFilterLimits px py).isInsideGrid x y ↔ |x - px| < g.grid_size / 2 ∧ |y - py| < g.grid_size / 2) ∧
    ((g.setFilterLimits px py).InSquare i j x y ↔
      (i * g.cell_size ≤ x - (px - g.grid_size / 2) ∧ x - (px - g.grid_size / 2) < (i + 1) * g.cell_size) ∧
      (j * g.cell_size ≤ y - (py - g.grid_size / 2) ∧ y - (py - g.grid_size / 2) < (j + 1) * g.cell_size)) := by
  unfold Grid.isInsideGrid Grid.InSquare Grid.setFilterLimits
  dsimp only
  rw [abs_lt, abs_lt]
  constructor
  · constructor
    · rintro ⟨h1, h2, h3, h4⟩
      exact ⟨⟨by linarith, by linarith⟩, by linarith, by linarith⟩
    · rintro ⟨⟨h1, h2⟩, h3, h4⟩
      exact ⟨by linarith, by linarith, by linarith, by linarith⟩
  · constructor
    · rintro ⟨h1, h2, h3, h4⟩
      exact ⟨⟨by linarith, by linarith⟩, by linarith, by linarith⟩
    · rintro ⟨⟨h1, h2⟩, h3, h4⟩
      exact ⟨by linarith, by linarith, by linarith, by linarith⟩

/-- The vehicle's own index is always the middle one. -/
theorem C43_position_index (g : Grid K) (hg : g.Sized) (px py : K) :
    (g.setFilterLimits px py).computeGridIndexes px py = (⌊g.grid_size / 2 / g.cell_size⌋, ⌊g.grid_size / 2 / g.cell_size⌋) ∧
    InGrid g.n ⌊g.grid_size / 2 / g.cell_size⌋ ⌊g.grid_size / 2 / g.cell_size⌋ := by
  have e : (g.setFilterLimits px py).computeGridIndexes px py =
      (⌊g.grid_size / 2 / g.cell_size⌋, ⌊g.grid_size / 2 / g.cell_size⌋) := by
    unfold Grid.computeGridIndexes Grid.setFilterLimits
    dsimp only
    rw [show px - (px - g.grid_size / 2) = g.grid_size / 2 by ring,
      show py - (py - g.grid_size / 2) = g.grid_size / 2 by ring]
  refine ⟨e, ?_⟩
  have h := (C43_index_in_range g hg px py px py (by
    unfold Grid.isInsideGrid Grid.setFilterLimits
    dsimp only
    have := hg.2.1
    refine ⟨?_, ?_, ?_, ?_⟩ <;> linarith)).1
  rw [e] at h
  exact h

example : (Grid.new (10 : ℚ) (1/4)).Sized ∧ (Grid.new (10 : ℚ) (1/4)).n = 40 := by
  unfold Grid.Sized; decide +kernel

example : ((Grid.new (10 : ℚ) (3/10)).setFilterLimits 2 3).isInsideGrid (69/10) (-2 + 1/100) ∧
    ((Grid.new (10 : ℚ) (3/10)).setFilterLimits 2 3).computeGridIndexes (69/10) (-2 + 1/100) = (33, 0) ∧
    (Grid.new (10 : ℚ) (3/10)).n = 34 := by decide +kernel

/-! ## C44: statistics -/

/-- The statistics of the square `(i, j)` are those of the list `L`. -/
def Stats (g : Grid K) (i j : ℤ) (L : List K) : Prop :=
  g.counter i j = L.length ∧ g.mean i j = avg L ∧ g.variance i j = popVar L

theorem sum_sq_dev (l : List K) (c : K) :
    (l.map fun z => (z - c) ^ 2).sum = (l.map fun z => z ^ 2).sum - 2 * c * l.sum + l.length * c ^ 2 := by
  induction l with
  | nil => simp
  | cons a l ih =>
    simp only [List.map_cons, List.sum_cons, List.length_cons, ih]
    push_cast
    ring

theorem avg_mul (l : List K) : avg l * l.length = l.sum := by
  unfold avg
  by_cases h : l = []
  · subst h; simp
  · have : (l.length : K) ≠ 0 := by
      rw [Nat.cast_ne_zero]
      exact fun h0 => h (List.length_eq_zero_iff.mp h0)
    field_simp

theorem popVar_mul (l : List K) : popVar l * l.length = (l.map fun z => z ^ 2).sum - l.length * avg l ^ 2 := by
  have h1 : popVar l * l.length = (l.map fun z => (z - avg l) ^ 2).sum := by
    unfold popVar
    by_cases h : l = []
    · subst h; simp
    · have : (l.length : K) ≠ 0 := by
        rw [Nat.cast_ne_zero]
        exact fun h0 => h (List.length_eq_zero_iff.mp h0)
      field_simp
  rw [h1, sum_sq_dev, ← avg_mul l]
  ring

theorem welford (L : List K) (z : K) :
    computeOnlineMeanVariance (avg L) (popVar L) z (((L.length : ℤ) + 1 : ℤ) : K) = (avg (L ++ [z]), popVar (L ++ [z])) := by
  have hlen : ((L ++ [z]).length : K) = (L.length : K) + 1 := by simp
  have hpos : (0 : K) < (L.length : K) + 1 := by positivity
  have e : (((L.length : ℤ) + 1 : ℤ) : K) = (L.length : K) + 1 := by push_cast; ring
  have hm : (avg L * ((L.length : K) + 1 - 1) + z) / ((L.length : K) + 1) = avg (L ++ [z]) := by
    rw [add_sub_cancel_right, avg_mul]
    unfold avg
    rw [hlen, List.sum_append]
    simp
  unfold computeOnlineMeanVariance
  rw [e]
  dsimp only
  rw [hm]
  refine Prod.ext_iff.mpr ⟨rfl, ?_⟩
  dsimp only
  rw [if_pos (by rw [add_sub_cancel_right]; positivity), add_sub_cancel_right, popVar_mul]
  rw [div_eq_iff hpos.ne']
  have h2 := popVar_mul (L ++ [z])
  rw [hlen] at h2
  rw [h2]
  have h3 := avg_mul (L ++ [z])
  rw [hlen, List.sum_append, ← avg_mul L] at h3
  simp only [List.sum_cons, List.sum_nil, add_zero] at h3
  simp only [List.map_append, List.sum_append, List.map_cons, List.map_nil, List.sum_cons, List.sum_nil, add_zero]
  set m := avg L
  set m' := avg (L ++ [z])
  set n := (L.length : K)
  have h4 : z = m' * (n + 1) - m * n := by linarith
  rw [h4]
  ring

/-- The fields the binning loop does not touch. -/
def SameFrame (g g' : Grid K) : Prop :=
  g'.grid_size = g.grid_size ∧ g'.cell_size = g.cell_size ∧ g'.n = g.n ∧ g'.min_x = g.min_x ∧ g'.min_y = g.min_y ∧
  g'.max_x = g.max_x ∧ g'.max_y = g.max_y ∧ g'.land = g.land

theorem SameFrame.refl (g : Grid K) : SameFrame g g := ⟨rfl, rfl, rfl, rfl, rfl, rfl, rfl, rfl⟩

theorem SameFrame.trans {a b c : Grid K} (h : SameFrame a b) (h' : SameFrame b c) : SameFrame a c := by
  obtain ⟨a1, a2, a3, a4, a5, a6, a7, a8⟩ := h
  obtain ⟨b1, b2, b3, b4, b5, b6, b7, b8⟩ := h'
  exact ⟨b1.trans a1, b2.trans a2, b3.trans a3, b4.trans a4, b5.trans a5, b6.trans a6, b7.trans a7, b8.trans a8⟩

theorem heights_frame {g g' : Grid K} (h : SameFrame g g') (cloud : List (CloudPoint K)) (i j : ℤ) :
    g'.heights cloud i j = g.heights cloud i j := by
  obtain ⟨a1, a2, a3, a4, a5, a6, a7, a8⟩ := h
  obtain ⟨_, _, _, _, _, _, _, _, _, _, _⟩ := g
  obtain ⟨_, _, _, _, _, _, _, _, _, _, _⟩ := g'
  dsimp only at a1 a2 a3 a4 a5 a6 a7 a8
  subst a1 a2 a3 a4 a5 a6 a7 a8
  rfl

/-- The limits fit the size. -/
def Grid.Centred (g : Grid K) : Prop := g.max_x = g.min_x + g.grid_size ∧ g.max_y = g.min_y + g.grid_size

theorem centred_setFilterLimits (g : Grid K) (x y : K) : (g.setFilterLimits x y).Centred := by
  unfold Grid.Centred Grid.setFilterLimits
  dsimp only
  constructor <;> ring

theorem addPoint_stats (g : Grid K) (hg : g.Sized) (hc : g.Centred) (p : CloudPoint K) :
    ∃ g', addPoint g p = some g' ∧ SameFrame g g' ∧
      ∀ i j L, Stats g i j L → Stats g' i j (L ++ g.heights [p] i j) := by
  obtain ⟨px, py, pz⟩ := p
  have skip : g.heights [⟨px, py, pz⟩] = (fun _ _ => []) → addPoint g ⟨px, py, pz⟩ = some g →
      ∃ g', addPoint g ⟨px, py, pz⟩ = some g' ∧ SameFrame g g' ∧
      ∀ i j L, Stats g i j L → Stats g' i j (L ++ g.heights [⟨px, py, pz⟩] i j) := by
    intro h1 h2
    refine ⟨g, h2, SameFrame.refl g, fun i j L h => ?_⟩
    rw [h1]
    simpa using h
  match px, py, pz with
  | none, y, z => exact skip (by funext i j; rfl) rfl
  | some x, none, z => exact skip (by funext i j; rfl) rfl
  | some x, some y, none => exact skip (by funext i j; rfl) rfl
  | some x, some y, some z =>
    by_cases hin : g.isInsideGrid x y
    · have hx := idx_range (s := g.grid_size) hg.1 hin.2.1 (by rw [← hc.1]; exact hin.1)
      have hy := idx_range (s := g.grid_size) hg.1 hin.2.2.2 (by rw [← hc.2]; exact hin.2.2.1)
      rw [← hg.2.2] at hx hy
      have hI : InGrid g.n (g.computeGridIndexes x y).1 (g.computeGridIndexes x y).2 := ⟨hx.1, hx.2, hy.1, hy.2⟩
      have e := (rfl : addPoint g ⟨some x, some y, some z⟩ = _)
      conv at e => rhs; unfold addPoint; dsimp only
      rw [if_pos hin, if_pos hI] at e
      refine ⟨_, e, ⟨rfl, rfl, rfl, rfl, rfl, rfl, rfl, rfl⟩, fun i j L h => ?_⟩
      have hsq : g.InSquare i j x y ↔ (i = (g.computeGridIndexes x y).1 ∧ j = (g.computeGridIndexes x y).2) := by
        unfold Grid.InSquare Grid.computeGridIndexes
        dsimp only
        rw [eq_comm (a := i), eq_comm (a := j), floor_eq_iff_square hg.1, floor_eq_iff_square hg.1]
        tauto
      unfold Grid.heights
      simp only [List.filterMap_cons, List.filterMap_nil]
      by_cases hs : g.InSquare i j x y
      · obtain ⟨hi, hj⟩ := hsq.mp hs
        rw [if_pos ⟨hin, hs⟩]
        dsimp only
        unfold Stats write
        dsimp only
        rw [if_pos ⟨hi, hj⟩, if_pos ⟨hi, hj⟩, if_pos ⟨hi, hj⟩, ← hi, ← hj, h.1, h.2.1, h.2.2, welford]
        exact ⟨by simp, rfl, rfl⟩
      · have hne : ¬ (i = (g.computeGridIndexes x y).1 ∧ j = (g.computeGridIndexes x y).2) := fun h' => hs (hsq.mpr h')
        rw [if_neg (fun h' => hs h'.2)]
        dsimp only
        unfold Stats write
        dsimp only
        rw [if_neg hne, if_neg hne, if_neg hne, List.append_nil]
        exact h
    · refine skip (by
        funext i j
        unfold Grid.heights
        simp only [List.filterMap_cons, List.filterMap_nil]
        rw [if_neg (fun h => hin h.1)]) (by
        unfold addPoint
        dsimp only
        rw [if_neg hin])

theorem sized_frame {g g' : Grid K} (h : SameFrame g g') (hg : g.Sized) : g'.Sized := by
  obtain ⟨a1, a2, a3, a4, a5, a6, a7, a8⟩ := h
  unfold Grid.Sized
  rw [a1, a2, a3]
  exact hg

theorem centred_frame {g g' : Grid K} (h : SameFrame g g') (hg : g.Centred) : g'.Centred := by
  obtain ⟨a1, a2, a3, a4, a5, a6, a7, a8⟩ := h
  unfold Grid.Centred
  rw [a1, a4, a5, a6, a7]
  exact hg

theorem binCloud_stats (cloud : List (CloudPoint K)) : ∀ (g : Grid K), g.Sized → g.Centred →
    ∃ g', binCloud g cloud = some g' ∧ SameFrame g g' ∧
      ∀ i j L, Stats g i j L → Stats g' i j (L ++ g.heights cloud i j) := by
  induction cloud with
  | nil =>
    intro g _ _
    exact ⟨g, rfl, SameFrame.refl g, fun i j L h => by simpa [Grid.heights] using h⟩
  | cons p ps ih =>
    intro g hg hc
    obtain ⟨g1, e1, f1, s1⟩ := addPoint_stats g hg hc p
    obtain ⟨g2, e2, f2, s2⟩ := ih g1 (sized_frame f1 hg) (centred_frame f1 hc)
    refine ⟨g2, ?_, f1.trans f2, fun i j L h => ?_⟩
    · unfold binCloud loopM
      rw [e1]
      exact e2
    · have := s2 i j _ (s1 i j L h)
      rw [heights_frame f1] at this
      have he : g.heights (p :: ps) i j = g.heights [p] i j ++ g.heights ps i j := by
        unfold Grid.heights
        rw [← List.filterMap_append]
        rfl
      rw [he, ← List.append_assoc]
      exact this

/-- **C44.** Binning any cloud into the emptied grid is free of out-of-range accesses and leaves in each
cell the number, the arithmetic mean and the population variance of the heights of exactly those points
that lie inside the limits and in the square of the cell. -/
theorem C44_cell_statistics (g : Grid K) (hg : g.Sized) (px py : K) (cloud : List (CloudPoint K)) :
    ∃ g', binCloud (g.setFilterLimits px py).reset cloud = some g' ∧ g'.n = g.n ∧ g'.cell_size = g.cell_size ∧
      ∀ i j, g'.counter i j = ((g.setFilterLimits px py).heights cloud i j).length ∧
        g'.mean i j = avg ((g.setFilterLimits px py).heights cloud i j) ∧
        g'.variance i j = popVar ((g.setFilterLimits px py).heights cloud i j) := by
  obtain ⟨g', e, f, h⟩ := binCloud_stats cloud (g.setFilterLimits px py).reset hg (centred_setFilterLimits g px py)
  refine ⟨g', e, f.2.2.1, f.2.1, fun i j => ?_⟩
  have := h i j [] ⟨by simp [Grid.reset], by simp [Grid.reset, avg], by simp [Grid.reset, popVar]⟩
  rw [List.nil_append] at this
  exact this

/-- **C44, order.** The statistics do not depend on the order of the points. -/
theorem C44_order_independent (g : Grid K) (hg : g.Sized) (px py : K) (c c' : List (CloudPoint K)) (h : c.Perm c')
    (a b : Grid K) (ha : binCloud (g.setFilterLimits px py).reset c = some a)
    (hb : binCloud (g.setFilterLimits px py).reset c' = some b) (i j : ℤ) :
    a.counter i j = b.counter i j ∧ a.mean i j = b.mean i j ∧ a.variance i j = b.variance i j := by
  obtain ⟨a', ea, _, _, sa⟩ := C44_cell_statistics g hg px py c
  obtain ⟨b', eb, _, _, sb⟩ := C44_cell_statistics g hg px py c'
  rw [ea] at ha
  rw [eb] at hb
  cases ha
  cases hb
  have hp : ((g.setFilterLimits px py).heights c i j).Perm ((g.setFilterLimits px py).heights c' i j) := h.filterMap _
  have e1 : avg ((g.setFilterLimits px py).heights c i j) = avg ((g.setFilterLimits px py).heights c' i j) := by
    unfold avg; rw [hp.sum_eq, hp.length_eq]
  refine ⟨?_, ?_, ?_⟩
  · rw [(sa i j).1, (sb i j).1, hp.length_eq]
  · rw [(sa i j).2.1, (sb i j).2.1, e1]
  · rw [(sa i j).2.2, (sb i j).2.2]
    unfold popVar
    rw [e1, (hp.map _).sum_eq, hp.length_eq]

theorem popVar_nonneg (l : List K) : 0 ≤ popVar l := by
  unfold popVar
  apply div_nonneg _ (by positivity)
  apply List.sum_nonneg
  intro x hx
  obtain ⟨z, _, rfl⟩ := List.mem_map.mp hx
  positivity

example : (binCloud ((Grid.new (4 : ℚ) 1).setFilterLimits 0 0).reset
    [⟨some (1/2), some (1/2), some 1⟩, ⟨some (1/3), some (1/4), some 4⟩, ⟨none, some 0, some 7⟩, ⟨some 9, some 0, some 7⟩]).map
      (fun g => (g.counter 2 2, g.mean 2 2, g.variance 2 2)) = some (2, 5/2, 9/4) := by decide +kernel

end Landing
end Avoidance
