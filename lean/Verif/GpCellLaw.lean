import Verif.GpCellProps

/-!
# The distances and the goal tests in numbers (C52)
-/

namespace Avoidance
namespace Global

set_option linter.unusedSectionVars false

section
variable {K : Type*} [Field K] [LinearOrder K] [IsStrictOrderedRing K] [FloorRing K]

theorem pos_diff (sc : K) (i j : ℤ) : pos sc i - pos sc j = sc * ((i - j : ℤ) : K) := by
  unfold pos
  push_cast
  ring

theorem abs_pos_diff (sc : K) (hs : 0 < sc) (i j : ℤ) : |pos sc i - pos sc j| = sc * ((|i - j| : ℤ) : K) := by
  rw [pos_diff, abs_mul, abs_of_pos hs, Int.cast_abs]

/-- **C52, grid distances.** The grid distance of two cells is, in cells, the larger of the two horizontal differences plus 0.414… times
the smaller one: the length of the way of straight and diagonal steps (the code's literal for the root of two). The distance with
height adds the vertical difference. -/
theorem C52_grid_distance (sc : K) (hs : 0 < sc) (a b : Cell) :
    a.diag2D sc b = sc * ((max |a.x - b.x| |a.y - b.y| : ℤ) + (41421356237 / 100000000000) * (min |a.x - b.x| |a.y - b.y| : ℤ)) ∧
    a.diag3D sc b = a.diag2D sc b + sc * (|a.z - b.z| : ℤ) := by
  refine ⟨?_, ?_⟩
  · unfold Cell.diag2D diagLit
    rw [abs_pos_diff sc hs, abs_pos_diff sc hs]
    rcases le_total |a.x - b.x| |a.y - b.y| with h | h
    · have hK : ((|a.x - b.x| : ℤ) : K) ≤ ((|a.y - b.y| : ℤ) : K) := by exact_mod_cast h
      rw [min_eq_left (mul_le_mul_of_nonneg_left hK hs.le), max_eq_right h, min_eq_left h]
      ring
    · have hK : ((|a.y - b.y| : ℤ) : K) ≤ ((|a.x - b.x| : ℤ) : K) := by exact_mod_cast h
      rw [min_eq_right (mul_le_mul_of_nonneg_left hK hs.le), max_eq_left h, min_eq_right h]
      ring
  · unfold Cell.diag3D
    rw [abs_pos_diff sc hs a.z b.z]

/-- **C52, goal tests.** A plan may end in a cell exactly if the sum of the index differences to the goal cell, times the cell size, is
below half the goal radius; the vehicle has reached the goal exactly if the sum of its coordinate differences to the centre of the
goal cell is below the radius. -/
theorem C52_goal_tests (sc : K) (hs : 0 < sc) (g : GoalCell K) (c : Cell) (p : V3 K) :
    (g.withinPlan sc c ↔ sc * ((|g.cell.x - c.x| + |g.cell.y - c.y| + |g.cell.z - c.z| : ℤ) : K) < g.radius / 2) ∧
    (g.withinPosition sc p ↔
      |sc * g.cell.x + sc / 2 - p.x| + |sc * g.cell.y + sc / 2 - p.y| + |sc * g.cell.z + sc / 2 - p.z| < g.radius) := by
  constructor
  · unfold GoalCell.withinPlan Cell.manhattan Cell.toPoint
    dsimp only
    rw [abs_pos_diff sc hs, abs_pos_diff sc hs, abs_pos_diff sc hs]
    push_cast
    rw [← mul_add, ← mul_add]
  · unfold GoalCell.withinPosition Cell.manhattan
    have e : ∀ i : ℤ, pos sc i = sc * i + sc / 2 := by intro i; unfold pos; ring
    rw [e, e, e]

end

/-- **C52, lengths.** The other two distances are Euclidean, between the centres of the cells. -/
theorem C52_euclidean (sc : ℝ) (hs : 0 < sc) (a b : Cell) :
    a.dist2D sc b = sc * Real.sqrt (((a.x - b.x) ^ 2 + (a.y - b.y) ^ 2 : ℤ)) ∧
    a.dist3D sc b = sc * Real.sqrt (((a.x - b.x) ^ 2 + (a.y - b.y) ^ 2 + (a.z - b.z) ^ 2 : ℤ)) := by
  unfold Cell.dist2D Cell.dist3D
  simp only [pos_diff]
  constructor
  · rw [show (sc * ((a.x - b.x : ℤ) : ℝ)) ^ 2 + (sc * ((a.y - b.y : ℤ) : ℝ)) ^ 2 = sc ^ 2 * (((a.x - b.x) ^ 2 + (a.y - b.y) ^ 2 : ℤ) : ℝ) by
      push_cast; ring, Real.sqrt_mul (sq_nonneg sc), Real.sqrt_sq hs.le]
  · rw [show (sc * ((a.x - b.x : ℤ) : ℝ)) ^ 2 + (sc * ((a.y - b.y : ℤ) : ℝ)) ^ 2 + (sc * ((a.z - b.z : ℤ) : ℝ)) ^ 2 =
      sc ^ 2 * (((a.x - b.x) ^ 2 + (a.y - b.y) ^ 2 + (a.z - b.z) ^ 2 : ℤ) : ℝ) by push_cast; ring,
      Real.sqrt_mul (sq_nonneg sc), Real.sqrt_sq hs.le]

example : (⟨0, 0, 0⟩ : Cell).diag3D (1 : ℚ) ⟨3, 1, 2⟩ = 3 + 41421356237 / 100000000000 + 2 := by decide +kernel
example : (⟨⟨0, 0, 0⟩, 5, false⟩ : GoalCell ℚ).withinPlan 1 ⟨1, 1, 0⟩ ∧ ¬ (⟨⟨0, 0, 0⟩, 4, false⟩ : GoalCell ℚ).withinPlan 1 ⟨1, 1, 0⟩ := by
  decide +kernel

end Global
end Avoidance
