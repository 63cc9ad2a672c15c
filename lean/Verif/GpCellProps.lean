import Verif.GpCell
import Mathlib.Tactic.Ring
import Mathlib.Tactic.Linarith
import Mathlib.Tactic.FieldSimp
import Mathlib.Tactic.Positivity
import Mathlib.Tactic.NormNum
import Mathlib.Tactic.IntervalCases

/-!
# Cells (C52)
-/

namespace Avoidance
namespace Global

set_option linter.unusedSectionVars false

section
variable {K : Type*} [Field K] [LinearOrder K] [IsStrictOrderedRing K] [FloorRing K]

/-! ## Specification -/

/-- The box of space that belongs to cell `c` of a grid with cell size `sc`: half-open on every axis. -/
def InBox (sc : K) (c : Cell) (p : V3 K) : Prop :=
  (sc * (c.x : K) ≤ p.x ∧ p.x < sc * ((c.x : K) + 1)) ∧
  (sc * (c.y : K) ≤ p.y ∧ p.y < sc * ((c.y : K) + 1)) ∧
  (sc * (c.z : K) ≤ p.z ∧ p.z < sc * ((c.z : K) + 1))

/-! ## Cells partition space -/

theorem floor_div_iff (sc : K) (hs : 0 < sc) (a : K) (i : ℤ) : ⌊a / sc⌋ = i ↔ sc * (i : K) ≤ a ∧ a < sc * ((i : K) + 1) := by
  rw [Int.floor_eq_iff, le_div_iff₀ hs, div_lt_iff₀ hs, mul_comm, mul_comm ((i : K) + 1)]

/-- **C52**: the cell of a position is the one and only cell whose box contains the position. -/
theorem C52_cell_unique (sc : K) (hs : 0 < sc) (p : V3 K) (c : Cell) : cellOf sc p = c ↔ InBox sc c p := by
  obtain ⟨cx, cy, cz⟩ := c
  unfold cellOf InBox
  rw [Cell.mk.injEq, floor_div_iff sc hs, floor_div_iff sc hs, floor_div_iff sc hs]

/-- **C52**: every position lies in exactly one box. -/
theorem C52_partition (sc : K) (hs : 0 < sc) (p : V3 K) : ∃! c : Cell, InBox sc c p := by
  refine ⟨cellOf sc p, (C52_cell_unique sc hs p _).mp rfl, fun c hc => ?_⟩
  exact ((C52_cell_unique sc hs p c).mpr hc).symm

/-- **C52**: the centre reported for a cell lies in the cell, and every position of the cell is at most half a cell size
away from it on every axis. -/
theorem C52_centre (sc : K) (hs : 0 < sc) (c : Cell) :
    cellOf sc (c.toPoint sc) = c ∧
    ∀ p, InBox sc c p → |p.x - (c.toPoint sc).x| ≤ sc / 2 ∧ |p.y - (c.toPoint sc).y| ≤ sc / 2 ∧ |p.z - (c.toPoint sc).z| ≤ sc / 2 := by
  constructor
  · rw [C52_cell_unique sc hs]
    unfold InBox Cell.toPoint pos
    refine ⟨⟨?_, ?_⟩, ⟨?_, ?_⟩, ⟨?_, ?_⟩⟩ <;> dsimp only <;> nlinarith
  · rintro p ⟨⟨a, b⟩, ⟨c', d⟩, ⟨e, f⟩⟩
    unfold Cell.toPoint pos
    dsimp only
    refine ⟨?_, ?_, ?_⟩ <;> rw [abs_le] <;> constructor <;> nlinarith

/-- non-vacuity: negative coordinates, a cell size of 1/2 -/
example : cellOf (1/2 : ℚ) ⟨-1/10, 7/10, 2⟩ = ⟨-1, 1, 4⟩ := by decide +kernel
example : InBox (1/2 : ℚ) ⟨-1, 1, 4⟩ ⟨-1/10, 7/10, 2⟩ := by unfold InBox; norm_num

/-! ## Neighbours -/

/-- Two cells touch in a way the planner can move along: one horizontal step (straight or diagonal) or one vertical step. -/
def Adjacent (a b : Cell) : Prop :=
  (b.z = a.z ∧ |b.x - a.x| ≤ 1 ∧ |b.y - a.y| ≤ 1 ∧ (b.x ≠ a.x ∨ b.y ≠ a.y)) ∨ (b.x = a.x ∧ b.y = a.y ∧ |b.z - a.z| = 1)

/-- **C52**: the neighbours are exactly the eight horizontally and the two vertically adjacent cells, each listed once. -/
theorem C52_neighbors (a b : Cell) :
    (b ∈ a.neighbors ↔ Adjacent a b) ∧ a.neighbors.Nodup ∧ a.neighbors.length = 10 := by
  obtain ⟨ax, ay, az⟩ := a
  obtain ⟨bx, b_y, bz⟩ := b
  refine ⟨?_, ?_, rfl⟩
  · unfold Cell.neighbors Adjacent
    simp only [List.mem_cons, Cell.mk.injEq, List.not_mem_nil, or_false, abs_le]
    constructor
    · rintro (h | h | h | h | h | h | h | h | h | h) <;> obtain ⟨rfl, rfl, rfl⟩ := h <;>
        first
          | exact Or.inl ⟨rfl, ⟨by omega, by omega⟩, ⟨by omega, by omega⟩, by omega⟩
          | exact Or.inr ⟨rfl, rfl, by rw [show az + 1 - az = 1 by ring]; rfl⟩
          | exact Or.inr ⟨rfl, rfl, by rw [show az - 1 - az = -1 by ring]; rfl⟩
    · rintro (⟨h1, h2, h3, h4⟩ | ⟨h1, h2, h3⟩)
      · have hx : bx = ax - 1 ∨ bx = ax ∨ bx = ax + 1 := by omega
        have hy : b_y = ay - 1 ∨ b_y = ay ∨ b_y = ay + 1 := by omega
        subst h1
        rcases hx with rfl | rfl | rfl <;> rcases hy with rfl | rfl | rfl <;> simp at h4 ⊢
      · have hz : bz = az + 1 ∨ bz = az - 1 := by
          rcases abs_cases (bz - az) with ⟨h, _⟩ | ⟨h, _⟩ <;> omega
        subst h1 h2
        rcases hz with rfl | rfl <;> simp
  · unfold Cell.neighbors
    simp [Cell.mk.injEq]
    omega

/-- **C52**: the neighbour relation is symmetric and irreflexive. -/
theorem C52_neighbors_symmetric (a b : Cell) : (b ∈ a.neighbors → a ∈ b.neighbors) ∧ a ∉ a.neighbors := by
  constructor
  · intro h
    rw [(C52_neighbors a b).1] at h
    rw [(C52_neighbors b a).1]
    unfold Adjacent at h ⊢
    rw [abs_sub_comm b.x, abs_sub_comm b.y, abs_sub_comm b.z] at h
    rcases h with ⟨h1, h2, h3, h4⟩ | ⟨h1, h2, h3⟩
    · exact Or.inl ⟨h1.symm, h2, h3, h4.imp Ne.symm Ne.symm⟩
    · exact Or.inr ⟨h1.symm, h2.symm, h3⟩
  · intro h
    rw [(C52_neighbors a a).1] at h
    rcases h with ⟨_, _, _, h | h⟩ | ⟨_, _, h⟩
    · exact h rfl
    · exact h rfl
    · rw [sub_self, abs_zero] at h; exact absurd h (by norm_num)

/-- **C52**: the diagonal neighbours are the four neighbours that differ in both horizontal indices. -/
theorem C52_diagonal_neighbors (a b : Cell) : b ∈ a.diagonalNeighbors ↔ b ∈ a.neighbors ∧ b.x ≠ a.x ∧ b.y ≠ a.y := by
  obtain ⟨ax, ay, az⟩ := a
  obtain ⟨bx, b_y, bz⟩ := b
  unfold Cell.diagonalNeighbors Cell.neighbors
  simp only [List.mem_cons, List.not_mem_nil, or_false]
  constructor
  · rintro (h | h | h | h) <;> rw [Cell.mk.injEq] at h <;> obtain ⟨rfl, rfl, rfl⟩ := h <;> simp
  · rintro ⟨h | h | h | h | h | h | h | h | h | h, h1, h2⟩ <;> rw [Cell.mk.injEq] at h <;> obtain ⟨rfl, rfl, rfl⟩ := h <;>
      simp at h1 h2 ⊢

example : Adjacent ⟨0, 0, 3⟩ ⟨-1, 1, 3⟩ ∧ Adjacent ⟨0, 0, 3⟩ ⟨0, 0, 2⟩ ∧ ¬ Adjacent ⟨0, 0, 3⟩ ⟨1, 0, 2⟩ := by
  unfold Adjacent; decide

/-! ## The octile distance -/

theorem pos_sub (sc : K) (i j : ℤ) : pos sc i - pos sc j = sc * ((i - j : ℤ) : K) := by
  unfold pos; push_cast; ring

theorem diagLit_bounds : (0 : K) < diagLit - 1 ∧ (diagLit : K) < 2 := by
  unfold diagLit
  constructor <;> norm_num

/-- Octile length of a planar displacement. -/
def octile (a b : K) : K := (|a| + |b|) + (diagLit - 2) * min |a| |b|

theorem octile_eq (a b : K) : octile a b = max |a| |b| + (diagLit - 1) * min |a| |b| := by
  unfold octile
  have := max_add_min |a| |b|
  linear_combination (-1 : K) * this

/-- the octile length as the larger of two sublinear expressions -/
theorem octile_max (a b : K) : octile a b = max (|a| + (diagLit - 1) * |b|) (|b| + (diagLit - 1) * |a|) := by
  have h1 := (diagLit_bounds (K := K)).2
  rw [octile_eq]
  rcases le_total |a| |b| with h | h
  · rw [max_eq_right h, min_eq_left h, max_eq_right]; nlinarith
  · rw [max_eq_left h, min_eq_right h, max_eq_left]; nlinarith

theorem octile_triangle (a b c d : K) : octile (a + c) (b + d) ≤ octile a b + octile c d := by
  have h0 := (diagLit_bounds (K := K)).1
  rw [octile_max, octile_max a b, octile_max c d]
  have e1 := abs_add_le a c
  have e2 := abs_add_le b d
  apply max_le
  · calc |a + c| + (diagLit - 1) * |b + d| ≤ (|a| + |c|) + (diagLit - 1) * (|b| + |d|) := by
          have := mul_le_mul_of_nonneg_left e2 h0.le; linarith
      _ = (|a| + (diagLit - 1) * |b|) + (|c| + (diagLit - 1) * |d|) := by ring
      _ ≤ _ := add_le_add (le_max_left _ _) (le_max_left _ _)
  · calc |b + d| + (diagLit - 1) * |a + c| ≤ (|b| + |d|) + (diagLit - 1) * (|a| + |c|) := by
          have := mul_le_mul_of_nonneg_left e1 h0.le; linarith
      _ = (|b| + (diagLit - 1) * |a|) + (|d| + (diagLit - 1) * |c|) := by ring
      _ ≤ _ := add_le_add (le_max_right _ _) (le_max_right _ _)

theorem octile_nonneg (a b : K) : 0 ≤ octile a b := by
  have h0 := (diagLit_bounds (K := K)).1
  rw [octile_eq]
  have := abs_nonneg a
  have := abs_nonneg b
  have : 0 ≤ min |a| |b| := le_min (abs_nonneg a) (abs_nonneg b)
  have : |a| ≤ max |a| |b| := le_max_left _ _
  nlinarith

theorem diag2D_octile (sc : K) (a b : Cell) :
    a.diag2D sc b = octile (sc * ((a.x - b.x : ℤ) : K)) (sc * ((a.y - b.y : ℤ) : K)) := by
  unfold Cell.diag2D octile
  rw [pos_sub, pos_sub]

/-- **C52**: the grid distance is a distance: non-negative, symmetric, zero only for cells above each other, and it obeys
the triangle inequality. -/
theorem C52_diag_metric (sc : K) (hs : 0 < sc) (a b c : Cell) :
    0 ≤ a.diag2D sc b ∧ a.diag2D sc b = b.diag2D sc a ∧ (a.diag2D sc b = 0 ↔ a.x = b.x ∧ a.y = b.y) ∧
    a.diag2D sc c ≤ a.diag2D sc b + b.diag2D sc c := by
  refine ⟨?_, ?_, ?_, ?_⟩
  · rw [diag2D_octile]; exact octile_nonneg _ _
  · unfold Cell.diag2D
    rw [abs_sub_comm (pos sc a.x), abs_sub_comm (pos sc a.y)]
  · rw [diag2D_octile]
    have h0 := (diagLit_bounds (K := K)).1
    constructor
    · intro h
      rw [octile_eq] at h
      have m0 : 0 ≤ min |sc * ((a.x - b.x : ℤ) : K)| |sc * ((a.y - b.y : ℤ) : K)| := le_min (abs_nonneg _) (abs_nonneg _)
      have l1 := le_max_left |sc * ((a.x - b.x : ℤ) : K)| |sc * ((a.y - b.y : ℤ) : K)|
      have l2 := le_max_right |sc * ((a.x - b.x : ℤ) : K)| |sc * ((a.y - b.y : ℤ) : K)|
      have z1 : |sc * ((a.x - b.x : ℤ) : K)| = 0 := le_antisymm (by nlinarith) (abs_nonneg _)
      have z2 : |sc * ((a.y - b.y : ℤ) : K)| = 0 := le_antisymm (by nlinarith) (abs_nonneg _)
      rw [abs_eq_zero, mul_eq_zero, Int.cast_eq_zero] at z1 z2
      exact ⟨by rcases z1 with h | h; exact absurd h hs.ne'; omega, by rcases z2 with h | h; exact absurd h hs.ne'; omega⟩
    · rintro ⟨h1, h2⟩
      rw [h1, h2]; unfold octile; simp
  · rw [diag2D_octile, diag2D_octile, diag2D_octile]
    have e1 : sc * ((a.x - c.x : ℤ) : K) = sc * ((a.x - b.x : ℤ) : K) + sc * ((b.x - c.x : ℤ) : K) := by push_cast; ring
    have e2 : sc * ((a.y - c.y : ℤ) : K) = sc * ((a.y - b.y : ℤ) : K) + sc * ((b.y - c.y : ℤ) : K) := by push_cast; ring
    rw [e1, e2]
    exact octile_triangle _ _ _ _

/-! ## Goal radius -/

/-- **C52**: a cell accepted as the end of a plan is, at its centre, a reached goal; a vehicle anywhere in that cell is
within the goal radius once the radius is at least three cell sizes. -/
theorem C52_goal_radius (sc : K) (hs : 0 < sc) (g : GoalCell K) (c : Cell) (h : g.withinPlan sc c) :
    g.withinPosition sc (c.toPoint sc) ∧ (3 * sc ≤ g.radius → ∀ p, InBox sc c p → g.withinPosition sc p) := by
  unfold GoalCell.withinPlan at h
  unfold GoalCell.withinPosition
  have h0 : 0 ≤ g.cell.manhattan sc (c.toPoint sc) := by unfold Cell.manhattan; positivity
  refine ⟨by linarith, fun hr p hp => ?_⟩
  obtain ⟨hx, hy, hz⟩ := (C52_centre sc hs c).2 p hp
  unfold Cell.manhattan at h ⊢
  have t1 := abs_sub_le (pos sc g.cell.x) (c.toPoint sc).x p.x
  have t2 := abs_sub_le (pos sc g.cell.y) (c.toPoint sc).y p.y
  have t3 := abs_sub_le (pos sc g.cell.z) (c.toPoint sc).z p.z
  rw [abs_sub_comm p.x] at hx
  rw [abs_sub_comm p.y] at hy
  rw [abs_sub_comm p.z] at hz
  linarith

/-- **C52**: with the default goal radius of one cell size a plan ends exactly in the goal cell. -/
theorem C52_goal_default_radius (sc : K) (hs : 0 < sc) (g : GoalCell K) (hg : g.radius = sc) (c : Cell) :
    g.withinPlan sc c ↔ c = g.cell := by
  unfold GoalCell.withinPlan Cell.manhattan Cell.toPoint
  rw [hg]
  dsimp only
  rw [pos_sub, pos_sub, pos_sub, abs_mul, abs_mul, abs_mul, abs_of_pos hs]
  constructor
  · intro h
    have key : ((|g.cell.x - c.x| + |g.cell.y - c.y| + |g.cell.z - c.z| : ℤ) : K) < 1 := by
      push_cast
      push_cast at h
      by_contra hc
      rw [not_lt] at hc
      nlinarith
    have key' : |g.cell.x - c.x| + |g.cell.y - c.y| + |g.cell.z - c.z| < 1 := by exact_mod_cast key
    have a1 := abs_nonneg (g.cell.x - c.x)
    have a2 := abs_nonneg (g.cell.y - c.y)
    have a3 := abs_nonneg (g.cell.z - c.z)
    have z1 := abs_eq_zero.mp (show |g.cell.x - c.x| = 0 by omega)
    have z2 := abs_eq_zero.mp (show |g.cell.y - c.y| = 0 by omega)
    have z3 := abs_eq_zero.mp (show |g.cell.z - c.z| = 0 by omega)
    obtain ⟨cx, cy, cz⟩ := c
    obtain ⟨⟨gx, gy, gz⟩, _, _⟩ := g
    dsimp only at *
    rw [Cell.mk.injEq]
    omega
  · rintro rfl
    simp
    positivity

/-- with a radius below three cell sizes the vehicle can be in the last cell of the plan but not within the goal radius -/
example : ∃ (g : GoalCell ℚ) (p : V3 ℚ), g.withinPlan 1 (cellOf 1 p) ∧ ¬ g.withinPosition 1 p :=
  ⟨⟨⟨0, 0, 0⟩, 1, false⟩, ⟨0, 0, 0⟩, by decide +kernel, by decide +kernel⟩

example : (⟨⟨4, 0, 3⟩, 5, true⟩ : GoalCell ℚ).withinPlan 1 ⟨3, 0, 4⟩ := by decide +kernel

end

/-! ## Lengths -/

theorem diagLit_le_sqrt2 : (diagLit : ℝ) ≤ Real.sqrt 2 := by
  apply Real.le_sqrt_of_sq_le
  unfold diagLit
  norm_num

/-- **C52**: one step to a neighbour is at least as long as the grid distance covered. -/
theorem C52_step_length (sc : ℝ) (hs : 0 < sc) (a b : Cell) (h : b ∈ a.neighbors) :
    a.diag2D sc b ≤ a.dist2D sc b ∧ (a.dist3D sc b = sc ∨ a.dist3D sc b = sc * Real.sqrt 2) := by
  have d2 : ∀ c : ℝ, 0 ≤ c → Real.sqrt (sc ^ 2 * c) = sc * Real.sqrt c := by
    intro c hc
    rw [Real.sqrt_mul (by positivity), Real.sqrt_sq hs.le]
  have hsq := diagLit_le_sqrt2
  unfold Cell.dist2D Cell.dist3D
  rw [diag2D_octile, pos_sub, pos_sub, pos_sub]
  have key : ((a.x - b.x) ^ 2 + (a.y - b.y) ^ 2 = 1 ∧ a.z = b.z ∧ (a.x = b.x ∨ a.y = b.y)) ∨
      ((a.x = b.x ∧ a.y = b.y) ∧ (a.z - b.z) ^ 2 = 1) ∨ (((a.x - b.x) ^ 2 = 1 ∧ (a.y - b.y) ^ 2 = 1) ∧ a.z = b.z) := by
    unfold Cell.neighbors at h
    simp only [List.mem_cons, List.not_mem_nil, or_false] at h
    rcases h with h | h | h | h | h | h | h | h | h | h <;> subst h <;> dsimp only <;>
      first
        | exact Or.inl ⟨by ring, rfl, by first | left; rfl | right; rfl⟩
        | exact Or.inr (Or.inl ⟨⟨rfl, rfl⟩, by ring⟩)
        | exact Or.inr (Or.inr ⟨⟨by ring, by ring⟩, rfl⟩)
  have c1 : ∀ i : ℤ, i ^ 2 = 1 → |(i : ℝ)| = 1 := by
    intro i hi
    rw [← sq_eq_sq₀ (abs_nonneg _) zero_le_one, sq_abs]
    exact_mod_cast (by rw [hi]; norm_num : i ^ 2 = 1 ^ 2)
  rcases key with ⟨h1, h2, h3⟩ | ⟨⟨h1, h2⟩, h3⟩ | ⟨⟨h1, h2⟩, h3⟩
  · have e : (sc * ((a.x - b.x : ℤ) : ℝ)) ^ 2 + (sc * ((a.y - b.y : ℤ) : ℝ)) ^ 2 = sc ^ 2 * 1 := by
      have : (((a.x - b.x) ^ 2 + (a.y - b.y) ^ 2 : ℤ) : ℝ) = 1 := by rw [h1]; norm_num
      push_cast at this ⊢
      linear_combination sc ^ 2 * this
    rw [show a.z - b.z = 0 by omega, Int.cast_zero, mul_zero, zero_pow (by norm_num), add_zero, e, d2 1 (by norm_num), Real.sqrt_one, mul_one]
    refine ⟨?_, Or.inl rfl⟩
    rw [octile_eq]
    rcases h3 with h3 | h3
    · rw [h3, sub_self, Int.cast_zero, mul_zero, abs_zero]
      have : (a.y - b.y) ^ 2 = 1 := by rw [h3, sub_self] at h1; linarith [h1]
      rw [abs_mul, c1 _ this, abs_of_pos hs, mul_one, min_eq_left hs.le, max_eq_right hs.le]; linarith
    · rw [h3, sub_self, Int.cast_zero, mul_zero, abs_zero]
      have : (a.x - b.x) ^ 2 = 1 := by rw [h3, sub_self] at h1; linarith [h1]
      rw [abs_mul, c1 _ this, abs_of_pos hs, mul_one, min_eq_right hs.le, max_eq_left hs.le]; linarith
  · rw [h1, h2, sub_self, sub_self, Int.cast_zero, mul_zero]
    have e : (0 : ℝ) ^ 2 + 0 ^ 2 + (sc * ((a.z - b.z : ℤ) : ℝ)) ^ 2 = sc ^ 2 * 1 := by
      have : (((a.z - b.z) ^ 2 : ℤ) : ℝ) = 1 := by rw [h3]; norm_num
      push_cast at this ⊢
      linear_combination sc ^ 2 * this
    rw [e, d2 1 (by norm_num), Real.sqrt_one, mul_one]
    refine ⟨?_, Or.inl rfl⟩
    unfold octile; simp
  · have e : (sc * ((a.x - b.x : ℤ) : ℝ)) ^ 2 + (sc * ((a.y - b.y : ℤ) : ℝ)) ^ 2 = sc ^ 2 * 2 := by
      have t1 : (((a.x - b.x) ^ 2 : ℤ) : ℝ) = 1 := by rw [h1]; norm_num
      have t2 : (((a.y - b.y) ^ 2 : ℤ) : ℝ) = 1 := by rw [h2]; norm_num
      push_cast at t1 t2 ⊢
      linear_combination sc ^ 2 * t1 + sc ^ 2 * t2
    rw [show a.z - b.z = 0 by omega, Int.cast_zero, mul_zero, zero_pow (by norm_num), add_zero, e, d2 2 (by norm_num)]
    refine ⟨?_, Or.inr rfl⟩
    rw [octile_eq, abs_mul, abs_mul, c1 _ h1, c1 _ h2, abs_of_pos hs, mul_one, max_self, min_self]
    nlinarith

/-- Consecutive cells of the list are neighbours. -/
def GridWalk : List Cell → Prop
  | a :: b :: l => b ∈ a.neighbors ∧ GridWalk (b :: l)
  | _ => True

/-- Horizontal length of a list of cells. -/
noncomputable def walkLength (sc : ℝ) : List Cell → ℝ
  | a :: b :: l => a.dist2D sc b + walkLength sc (b :: l)
  | _ => 0

/-- **C52**: the grid distance never exceeds the horizontal length of a walk over neighbouring cells, however long the
walk is: as a heuristic for the travelled distance it is admissible. -/
theorem C52_diag_admissible (sc : ℝ) (hs : 0 < sc) (a : Cell) (l : List Cell) (h : GridWalk (a :: l)) :
    a.diag2D sc ((a :: l).getLast (List.cons_ne_nil _ _)) ≤ walkLength sc (a :: l) := by
  induction l generalizing a with
  | nil =>
      rw [List.getLast_singleton, ((C52_diag_metric sc hs a a a).2.2.1).mpr ⟨rfl, rfl⟩]
      exact le_refl _
  | cons b l ih =>
      rw [List.getLast_cons (List.cons_ne_nil _ _)]
      have h1 := (C52_diag_metric sc hs a b ((b :: l).getLast (List.cons_ne_nil _ _))).2.2.2
      have h2 := (C52_step_length sc hs a b h.1).1
      have h3 := ih b h.2
      have h4 : walkLength sc (a :: b :: l) = a.dist2D sc b + walkLength sc (b :: l) := rfl
      linarith

/-- non-vacuity -/
example : GridWalk [⟨0, 0, 1⟩, ⟨1, 1, 1⟩, ⟨1, 1, 2⟩, ⟨2, 1, 2⟩] := by
  refine ⟨by decide, by decide, by decide, trivial⟩

/-! ## The neighbour in a direction -/

/-- **C52** (violated): the "neighbouring cell in the yaw direction" of a vehicle looking along the x axis (or the y axis) is
two cells away, so it is not a neighbour. -/
theorem C52_neighbor_from_yaw_violated (c : Cell) :
    c.neighborFromYaw 1 0 = ⟨c.x + 2, c.y, c.z⟩ ∧ c.neighborFromYaw 1 0 ∉ c.neighbors ∧
      c.neighborFromYaw 1 (Real.pi / 2) = ⟨c.x, c.y + 2, c.z⟩ ∧ c.neighborFromYaw 1 (Real.pi / 2) ∉ c.neighbors := by
  have t1 : truncR (2 * 1 * 1) = 2 := by
    unfold truncR
    rw [if_pos (by norm_num), show (2 * 1 * 1 : ℝ) = ((2 : ℤ) : ℝ) by norm_num, Int.floor_intCast]
  have t2 : truncR (2 * 1 * 0) = 0 := by
    unfold truncR
    rw [if_pos (by norm_num), mul_zero, Int.floor_zero]
  have e : c.neighborFromYaw 1 0 = ⟨c.x + 2, c.y, c.z⟩ := by
    unfold Cell.neighborFromYaw
    rw [C52_cell_unique 1 one_pos]
    rw [Real.cos_zero, Real.sin_zero, t1, t2]
    unfold InBox pos
    dsimp only
    push_cast
    refine ⟨⟨?_, ?_⟩, ⟨?_, ?_⟩, ⟨?_, ?_⟩⟩ <;> linarith
  have e' : c.neighborFromYaw 1 (Real.pi / 2) = ⟨c.x, c.y + 2, c.z⟩ := by
    unfold Cell.neighborFromYaw
    rw [C52_cell_unique 1 one_pos]
    rw [Real.cos_pi_div_two, Real.sin_pi_div_two, t1, t2]
    unfold InBox pos
    dsimp only
    push_cast
    refine ⟨⟨?_, ?_⟩, ⟨?_, ?_⟩, ⟨?_, ?_⟩⟩ <;> linarith
  refine ⟨e, ?_, e', ?_⟩
  · rw [e]
    unfold Cell.neighbors
    simp only [List.mem_cons, Cell.mk.injEq, List.not_mem_nil, or_false]
    omega
  · rw [e']
    unfold Cell.neighbors
    simp only [List.mem_cons, Cell.mk.injEq, List.not_mem_nil, or_false]
    omega

/-! ## Cells whose risk is added -/

theorem ceilSqrt_spec (n m : ℕ) (h1 : (m - 1) * (m - 1) < n) (h2 : n ≤ m * m) (hm : 0 < m) : ceilSqrt n = m := by
  unfold ceilSqrt
  have a1 := Nat.sqrt_le n
  have a2 := Nat.lt_succ_sqrt n
  by_cases hc : Nat.sqrt n * Nat.sqrt n = n
  · rw [if_pos hc]
    rw [← hc] at h1 h2
    have b1 := Nat.mul_self_lt_mul_self_iff.mp h1
    have b2 := Nat.mul_self_le_mul_self_iff.mp h2
    omega
  · rw [if_neg hc]
    have b1 : m - 1 < Nat.sqrt n + 1 := Nat.mul_self_lt_mul_self_iff.mp (lt_trans h1 a2)
    have b2 : Nat.sqrt n < m := by
      have : Nat.sqrt n * Nat.sqrt n < n := lt_of_le_of_ne a1 hc
      exact Nat.mul_self_lt_mul_self_iff.mp (lt_of_lt_of_le this h2)
    omega

theorem mem_intRange (a b i : ℤ) : i ∈ intRange a b ↔ a ≤ i ∧ i ≤ b := by
  unfold intRange
  rw [List.mem_map]
  constructor
  · rintro ⟨k, hk, rfl⟩
    rw [List.mem_range] at hk
    omega
  · rintro ⟨h1, h2⟩
    exact ⟨(i - a).toNat, by rw [List.mem_range]; omega, by omega⟩

theorem mapM_none_of_mem {α β : Type} (f : α → Option β) (l : List α) (a : α) (h : a ∈ l) (hf : f a = none) : l.mapM f = none := by
  induction l with
  | nil => exact absurd h (List.not_mem_nil)
  | cons b l ih =>
      rw [List.mapM_cons]
      rcases List.mem_cons.mp h with rfl | h
      · rw [hf]; rfl
      · rw [ih h]
        cases f b <;> rfl

/-- **C52**: the list of cells whose risk flows into a cell is defined exactly when the robot radius is at most one map
cell: the six face neighbours and the cell itself. From a radius of two map cells on the code takes the square root of a
negative number and converts the NaN to an integer, which is undefined. -/
theorem C52_flow_neighbors (c : Cell) (radius : ℤ) (h0 : 0 ≤ radius) :
    (radius = 0 → c.flowNeighbors radius = some [c]) ∧
    (radius = 1 → c.flowNeighbors radius = some [⟨c.x - 1, c.y, c.z⟩, ⟨c.x, c.y - 1, c.z⟩, ⟨c.x, c.y, c.z - 1⟩, c, ⟨c.x, c.y, c.z + 1⟩,
        ⟨c.x, c.y + 1, c.z⟩, ⟨c.x + 1, c.y, c.z⟩]) ∧
    (2 ≤ radius → c.flowNeighbors radius = none) := by
  refine ⟨?_, ?_, ?_⟩
  · rintro rfl
    have e : c.flowNeighbors 0 = some [⟨c.x + 0, c.y + 0, c.z + 0⟩] := rfl
    rw [e, add_zero, add_zero, add_zero]
  · rintro rfl
    have e : c.flowNeighbors 1 = some [⟨c.x + -1, c.y + 0, c.z + 0⟩, ⟨c.x + 0, c.y + -1, c.z + 0⟩, ⟨c.x + 0, c.y + 0, c.z + -1⟩,
        ⟨c.x + 0, c.y + 0, c.z + 0⟩, ⟨c.x + 0, c.y + 0, c.z + 1⟩, ⟨c.x + 0, c.y + 1, c.z + 0⟩, ⟨c.x + 1, c.y + 0, c.z + 0⟩] := rfl
    rw [e]
    simp only [add_zero]
    rfl
  · intro h
    unfold Cell.flowNeighbors
    rw [mapM_none_of_mem _ _ 1]
    · rfl
    · rw [mem_intRange]; omega
    · unfold flowColumn
      have e : ceilDistance radius 1 0 = some radius := by
        unfold ceilDistance
        dsimp only
        have hp : 1 * 1 < radius * radius := by nlinarith
        rw [if_pos (by omega)]
        have : ceilSqrt (radius * radius - 1 * 1 - 0 * 0).toNat = radius.toNat := by
          obtain ⟨r, rfl⟩ := Int.eq_ofNat_of_zero_le h0
          have h' : 2 ≤ r := by omega
          have e2 : (((r : ℤ) * (r : ℤ)) - 1 * 1 - 0 * 0).toNat = r * r - 1 := by
            have : ((r : ℤ) * (r : ℤ)) = ((r * r : ℕ) : ℤ) := by push_cast; ring
            rw [this]; omega
          rw [e2, Int.toNat_natCast]
          obtain ⟨q, rfl⟩ := Nat.exists_eq_add_of_le h'
          have e3 : (2 + q) * (2 + q) = (2 + q - 1) * (2 + q - 1) + 2 * q + 3 := by
            rw [show 2 + q - 1 = q + 1 by omega]; ring
          exact ceilSqrt_spec _ _ (by omega) (by omega) (by omega)
        rw [this, Int.toNat_of_nonneg h0]
      rw [e]
      dsimp only
      rw [mapM_none_of_mem _ _ radius]
      · rfl
      · rw [mem_intRange]; omega
      · unfold ceilDistance
        dsimp only
        rw [if_neg (by omega)]
        rfl

end Global
end Avoidance
