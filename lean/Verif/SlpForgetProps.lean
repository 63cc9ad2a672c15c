import Verif.SlpResetProps

/-!
# What the landing procedure forgets (C81), and when its drawing stays in range (C48)
-/

namespace Avoidance
namespace Landing

set_option linter.unusedSectionVars false

variable {K : Type*} [Field K] [LinearOrder K] [IsStrictOrderedRing K] [FloorRing K]

/-- **C81, a new grid size forgets the votes.** When the grid has changed its size since the last iteration, the votes and the verdict about the cells of the old grid have no influence on the iteration (nor on
anything later): cell `(i, j)` of the new grid is another place. -/
theorem C81_resize_forgets (ny : V3 (Option K) → V3 (Option K) → Option K) (w : Slp K) (hn : w.grid.n ≠ w.hyst_n) (votes : ℤ → ℤ → K) (verdict : ℤ → ℤ → ℤ) :
    calculateWaypoint ny { w with hyst := votes, result := verdict } = calculateWaypoint ny w := by
  have h : updateSlpState { w with hyst := votes, result := verdict } = updateSlpState w := by
    have m1 : ∀ v : Slp K, (updateMask v).grid = v.grid ∧ (updateMask v).hyst_n = v.hyst_n := by
      intro v; unfold updateMask; split_ifs <;> exact ⟨rfl, rfl⟩
    have m2 : updateHysteresisSize (updateMask { w with hyst := votes, result := verdict }) = updateHysteresisSize (updateMask w) := by
      have e : ∀ v : Slp K, v.grid.n ≠ v.hyst_n → updateHysteresisSize (updateMask v) = { updateMask v with hyst_n := (updateMask v).grid.n, hyst := fun _ _ => 0, result := fun _ _ => 0 } := by
        intro v hv
        unfold updateHysteresisSize
        rw [if_pos (by rw [(m1 v).1, (m1 v).2]; exact hv)]
      rw [e w hn, e { w with hyst := votes, result := verdict } hn]
      unfold updateMask
      split_ifs <;> rfl
    unfold updateSlpState
    rw [m2]
  unfold calculateWaypoint
  rw [h]

/-- **C81, leaving a landing forgets it.** At an iteration without an order to land, whatever an earlier landing left behind - votes, decision, place in the spiral, acceptance radius - has no influence. -/
theorem C81_no_order_forgets (ny : V3 (Option K) → V3 (Option K) → Option K) (w : Slp K) (hl : w.is_land_waypoint = false) (votes : ℤ → ℤ → K) (decided can exploring : Bool) (n : ℤ) (factor radius : K) :
    calculateWaypoint ny { w with hyst := votes, decision_taken := decided, can_land := can, exploration_is_active := exploring, n_explored_pattern := n, factor_exploration := factor, landing_radius := radius } =
      calculateWaypoint ny w := by
  have h : updateSlpState { w with hyst := votes, decision_taken := decided, can_land := can, exploration_is_active := exploring, n_explored_pattern := n, factor_exploration := factor, landing_radius := radius } =
      updateSlpState w := by
    unfold updateSlpState updateNotLanding updateHysteresisSize updateMask
    dsimp only
    split_ifs <;> first | rfl | simp_all
  unfold calculateWaypoint
  rw [h]

/-- **C48, visualisation.** With matrices of the size of the grid and a mask of the patch's size, the drawing of the landing area stays inside its matrices exactly if the patch has at most 20 rings and the grid
at least 21 rows more than that: 27 rows for the delivered patch size of 6. -/
theorem C48_visualisation_iff (w : Slp K) (hc : Consistent w) : visualisationInRange w ↔ w.smoothing_land_cell ≤ 20 ∧ w.smoothing_land_cell + 21 ≤ w.grid.n := by
  unfold visualisationInRange
  dsimp only
  rw [hc.mask_n, hc.hyst_n]
  omega

/-- The first grid of the run of C48 makes the size change: the hypothesis of `C81_resize_forgets` is met before its first iteration, and without an order to land so is that of `C81_no_order_forgets`. -/
example : (slpRunList [.reconfigure 0 (4/10) 4 1 2 1, .position ⟨some 0, some 0, some 1⟩ (some 0), .grid (flatGrid 1)]).map
    (fun s => (decide (s.gen.grid.n ≠ s.gen.hyst_n), s.gen.is_land_waypoint)) = some (true, false) := by decide +kernel

end Landing
end Avoidance
