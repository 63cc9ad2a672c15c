import Verif.GpHeurProps
import Verif.GpStateMore
import Verif.GpFollowProps
import Verif.GpMovesProps
import Verif.GpCellLaw

/-!
# Exact laws of the global planner that complete C56, C60, C73, C78 and C83
-/

namespace Avoidance
namespace Global

set_option linter.unusedSectionVars false

section
variable {K : Type*} [Field K] [LinearOrder K] [IsStrictOrderedRing K] [FloorRing K]

theorem belowHalf_iff (o : Option K) : belowHalf o = true ↔ ∃ r, o = some r ∧ r < 1 / 2 := by
  cases o with
  | none => simp [belowHalf]
  | some r => simp [belowHalf]

/-- **C56, in numbers.** A way back that does not lead to the very beginning ends in a cell with a defined risk below one half, at least
six cells back, and every cell on the way from the sixth on, except the last, has a risk of at least one half or an undefined one. -/
theorem C56_way_back_ends_at_low_risk (risk : Cell → Option K) (st st' : GpSt K) (h : goBack risk st = some st') :
    (st'.path.length < st.back.length → 7 ≤ st'.path.length ∧ ∃ r, risk st'.goal.cell = some r ∧ r < 1 / 2) ∧
    ∀ k, 5 < k → k + 1 < st'.path.length → k + 1 < st.back.length → ∀ r, risk (st.back.reverse.getD k default) = some r → 1 / 2 ≤ r := by
  obtain ⟨_, _, _, _, h5, h6⟩ := (C56_go_back risk st).2 st' h
  refine ⟨fun hl => ⟨(h5 hl).1, (belowHalf_iff _).mp (h5 hl).2⟩, fun k h1 h2 h3 r hr => ?_⟩
  have := h6 k h1 h2 h3
  by_contra hlt
  rw [(belowHalf_iff _).mpr ⟨r, hr, not_le.mp hlt⟩] at this
  exact absurd this (by simp)

/-- **C56, a new goal ends going back.** After a clicked goal, and after a goal of the flight controller in another column of cells, the cell of
the next position is recorded again (unless it is the last one recorded), whatever was going on before. -/
theorem C56_goal_resumes_recording (sc : K) (st : GpSt K) (alt radius x y : K) (p q : V3 K) :
    (setPose sc (clickGoal sc alt radius st x y) q).back.getLast? = some (cellOf sc q) ∧
    (fcuGoal sc st true p ≠ st → (setPose sc (fcuGoal sc st true p) q).back.getLast? = some (cellOf sc q)) ∧
    (setPose sc (stop sc st) q).back.getLast? = some (cellOf sc q) := by
  have key : ∀ s : GpSt K, s.goingBack = false → (setPose sc s q).back.getLast? = some (cellOf sc q) := by
    intro s hs
    unfold setPose
    dsimp only
    split
    · rw [List.getLast?_append]; rfl
    · rename_i h
      by_contra hne
      exact h ⟨hs, Or.inr hne⟩
  refine ⟨key _ rfl, fun hne => key _ ?_, key _ rfl⟩
  unfold fcuGoal at hne ⊢
  dsimp only at hne ⊢
  split at hne
  · rename_i h; rw [if_pos h]; rfl
  · exact absurd rfl hne

end

/-- **C78, short paths.** A path of fewer than two poses leaves the current goal as it is and nothing to follow afterwards: no position message
changes the goal any more. -/
theorem C78_short_path (st : FollowSt) (poses : List (GPose ℝ ℝ)) (h : poses.length < 2) (ps : List (GPose ℝ ℝ)) :
    (ps.foldl followPosition (setCurrentPath st poses)).goal = st.goal ∧ (ps.foldl followPosition (setCurrentPath st poses)).path = [] := by
  have h0 : setCurrentPath st poses = { st with path := [] } := by
    match poses, h with
    | [], _ => rfl
    | [_], _ => rfl
    | _ :: _ :: _, h => exact absurd h (by simp)
  rw [h0]
  have key : ∀ (ps : List (GPose ℝ ℝ)) (s : FollowSt), s.path = [] →
      (ps.foldl followPosition s).goal = s.goal ∧ (ps.foldl followPosition s).path = [] := by
    intro ps
    induction ps with
    | nil => intro s hs; exact ⟨rfl, hs⟩
    | cons p ps ih =>
        intro s hs
        have e : followPosition s p = { s with here := p } := by
          unfold followPosition
          dsimp only
          rw [hs]
        rw [List.foldl_cons, e]
        exact ih _ hs
  exact key ps _ rfl

/-! ## The heuristics -/

theorem accumulatedAt_eq (z : ℤ) (h0 : 0 ≤ z) (h1 : z < 25) :
    accumulatedAt z = some ((altPriorTable (K := ℝ)).take (z.toNat + 1)).sum := by
  have hl : (altPriorTable (K := ℝ)).length = 25 := rfl
  unfold accumulatedAt accumulatedPrior
  rw [if_pos h0, List.getElem?_map, List.getElem?_range (by rw [hl]; omega), Option.map_some]

theorem table_nonneg : ∀ x ∈ altPriorTable (K := ℝ), 0 ≤ x := by
  intro x hx
  simp only [altPriorTable, List.mem_cons, List.not_mem_nil, or_false] at hx
  rcases hx with h | h | h | h | h | h | h | h | h | h | h | h | h | h | h | h | h | h | h | h | h | h | h | h | h <;> rw [h] <;> norm_num

/-- The sum of the prior risks of the layers above the lower of two layers up to the higher one. -/
noncomputable def layersBetween (a b : ℤ) : ℝ :=
  (((altPriorTable (K := ℝ)).drop ((min a b).toNat + 1)).take ((max a b).toNat - (min a b).toNat)).sum

theorem take_sum_sub (l : List ℝ) (i j : ℕ) (h : i ≤ j) : (l.take j).sum - (l.take i).sum = ((l.drop i).take (j - i)).sum := by
  have : l.take j = l.take i ++ (l.drop i).take (j - i) := by
    conv_lhs => rw [show j = i + (j - i) by omega, List.take_add]
  rw [this, List.sum_append]
  ring

theorem layers_nonneg (a b : ℤ) : 0 ≤ layersBetween a b := by
  unfold layersBetween
  apply List.sum_nonneg
  intro x hx
  exact table_nonneg x (List.mem_of_mem_drop (List.mem_of_mem_take hx))

theorem accumulated_diff (a b : ℤ) (ha : 0 ≤ a ∧ a < 25) (hb : 0 ≤ b ∧ b < 25) :
    ∃ x y, accumulatedAt a = some x ∧ accumulatedAt b = some y ∧ |x - y| = layersBetween a b := by
  refine ⟨_, _, accumulatedAt_eq a ha.1 ha.2, accumulatedAt_eq b hb.1 hb.2, ?_⟩
  have h0 := layers_nonneg a b
  rcases le_total a b with h | h
  · rw [abs_sub_comm, take_sum_sub _ _ _ (by omega)]
    have : layersBetween a b = ((List.drop (a.toNat + 1) (altPriorTable (K := ℝ))).take (b.toNat + 1 - (a.toNat + 1))).sum := by
      unfold layersBetween
      rw [min_eq_left h, max_eq_right h]
      congr 2
      omega
    rw [← this, abs_of_nonneg h0]
  · rw [take_sum_sub _ _ _ (by omega)]
    have : layersBetween a b = ((List.drop (b.toNat + 1) (altPriorTable (K := ℝ))).take (a.toNat + 1 - (b.toNat + 1))).sum := by
      unfold layersBetween
      rw [min_eq_right h, max_eq_left h]
      congr 2
      omega
    rw [← this, abs_of_nonneg h0]

/-- **C60, the risk estimate in numbers.** For different cells inside the table the estimate is the risk of unexplored space - penalty times one plus
six times the flow, times the risk factor - times (grid distance less one, at the prior of the cell's layer, plus the priors of the layers
between), plus the risk of the goal; it is nothing at the goal. -/
theorem C60_risk_heuristic_exact (sc : ℝ) (W : RiskWorld ℝ) (C : CostCfg) (u goal : Cell) (hu : 0 ≤ u.z ∧ u.z < 25) (hg : 0 ≤ goal.z ∧ goal.z < 25)
    (r : ℝ) (hr : cellRisk sc W goal = some r) :
    riskHeuristic sc W C goal goal = some 0 ∧
    (u ≠ goal → riskHeuristic sc W C u goal =
      some (W.explore * (1 + 6 * W.flow) * C.riskFactor * ((u.diag2D sc goal - 1) * altPrior sc u + layersBetween u.z goal.z) + C.riskFactor * r)) := by
  refine ⟨by unfold riskHeuristic; rw [if_pos rfl], fun hne => ?_⟩
  obtain ⟨x, y, hx, hy, hxy⟩ := accumulated_diff u.z goal.z hu hg
  unfold riskHeuristic
  rw [if_neg hne, hx, hy, hr]
  dsimp only
  rw [hxy]
  congr 1
  ring

/-- **C73, the heuristic in numbers.** The estimate of a node is the factor times the horizontal grid distance, plus climb or descent to the
goal's height at their costs, plus the estimate of the turns, plus - if switched on - the estimate of the risk and the number of times a node of this
cell has entered the queue during this search. -/
theorem C73_heuristic_exact (sc : ℝ) (W : RiskWorld ℝ) (C : CostCfg) (H : HeurCfg) (goal : Cell) (hist : List Node) (u : Node) :
    (H.useRisk = false → ∃ e, getHeuristic sc W C H goal hist u = some e ∧
      e = H.overestimate * u.cell.diag2D sc goal + H.up * max ((goal.z - u.cell.z : ℤ) : ℝ) 0 + H.down * max ((u.cell.z - goal.z : ℤ) : ℝ) 0 +
        smoothnessHeuristic H u goal + (if H.useSpeedup = true then ((hist.countP fun n => n.cell == u.cell : ℕ) : ℝ) else 0)) ∧
    (H.useRisk = true → ∀ r, riskHeuristic sc W C u.cell goal = some r → ∃ e, getHeuristic sc W C H goal hist u = some e ∧
      e = H.overestimate * u.cell.diag2D sc goal + H.up * max ((goal.z - u.cell.z : ℤ) : ℝ) 0 + H.down * max ((u.cell.z - goal.z : ℤ) : ℝ) 0 +
        smoothnessHeuristic H u goal + r + (if H.useSpeedup = true then ((hist.countP fun n => n.cell == u.cell : ℕ) : ℝ) else 0)) := by
  have ha : altitudeHeuristic H u.cell goal = H.up * max ((goal.z - u.cell.z : ℤ) : ℝ) 0 + H.down * max ((u.cell.z - goal.z : ℤ) : ℝ) 0 := by
    unfold altitudeHeuristic
    have e2 : ((u.cell.z - goal.z : ℤ) : ℝ) = -((goal.z - u.cell.z : ℤ) : ℝ) := by push_cast; ring
    split
    · rename_i h
      have h' : (0 : ℝ) < ((goal.z - u.cell.z : ℤ) : ℝ) := by exact_mod_cast h
      rw [abs_of_pos h', e2, max_eq_left h'.le, max_eq_right (by linarith)]
      ring
    · rename_i h
      have h' : ((goal.z - u.cell.z : ℤ) : ℝ) ≤ 0 := by exact_mod_cast (not_lt.mp h)
      rw [abs_of_nonpos h', e2, max_eq_right h', max_eq_left (by linarith)]
      ring
  have hc : seenCount hist u.cell = hist.countP fun n => n.cell == u.cell := by
    unfold seenCount
    rw [List.countP_eq_length_filter]
    congr 2
  constructor
  · intro h
    unfold getHeuristic
    rw [if_neg (by rw [h]; simp), hc, ha]
    exact ⟨_, rfl, by ring⟩
  · intro h r hr
    unfold getHeuristic
    rw [if_pos h, hr, hc, ha]
    exact ⟨_, rfl, by ring⟩

/-- The estimate of the turns in numbers: nothing straight above or below the goal; the cost of one change from vertical to horizontal flight when
the last move was vertical; otherwise the turn towards the goal in units of 45°, plus one if the goal is at another height. -/
theorem C73_turn_estimate (H : HeurCfg) (u : Node) (goal : Cell) :
    (u.cell.x = goal.x → u.cell.y = goal.y → smoothnessHeuristic H u goal = 0) ∧
    (¬ (u.cell.x = goal.x ∧ u.cell.y = goal.y) → u.cell.x = u.parent.x → u.cell.y = u.parent.y → smoothnessHeuristic H u goal = H.smooth * H.vertToHor) ∧
    (¬ (u.cell.x = goal.x ∧ u.cell.y = goal.y) → ¬ (u.cell.x = u.parent.x ∧ u.cell.y = u.parent.y) →
      smoothnessHeuristic H u goal = H.smooth * (4 / Real.pi * |wrapPi ((goal.sub u.cell).angle - (u.cell.sub u.parent).angle)| +
        if u.cell.z = goal.z then 0 else 1)) := by
  have hpi := Real.pi_pos
  refine ⟨fun h1 h2 => ?_, fun h1 h2 h3 => ?_, fun h1 h2 => ?_⟩
  · unfold smoothnessHeuristic; rw [if_pos ⟨h1, h2⟩]
  · unfold smoothnessHeuristic; rw [if_neg h1, if_pos ⟨h2, h3⟩]
  · unfold smoothnessHeuristic
    rw [if_neg h1, if_neg h2, C01_angleToRange_eq_wrapPi]
    have : |wrapPi ((goal.sub u.cell).angle - (u.cell.sub u.parent).angle)| / (Real.pi / 4) =
        4 / Real.pi * |wrapPi ((goal.sub u.cell).angle - (u.cell.sub u.parent).angle)| := by field_simp
    rw [this]

/-! ## The summary of a path -/

/-- The moves of a path after its first: for each three consecutive cells the move between the last two. -/
def laterMoves : List Cell → List (Cell × Cell)
  | _ :: b :: c :: rest => (b, c) :: laterMoves (b :: c :: rest)
  | _ => []

/-- **C83, blocked.** The summary of a path reports a blockage exactly if the risk of one of its moves after the first exceeds the maximum. -/
theorem C83_blocked_exact (sc : ℝ) (W : RiskWorld ℝ) (C : CostCfg) (early : Cell → Bool) (path : List Cell) :
    (pathInfo sc W C early path).blocked = true ↔
      ∃ m ∈ laterMoves path, ∃ r, nodeRisk sc W ⟨m.2, m.1⟩ = some r ∧ C.maxCellRisk < r := by
  induction path with
  | nil => simp [pathInfo, laterMoves]
  | cons a path ih =>
      match path, ih with
      | [], _ => simp [pathInfo, laterMoves]
      | [b], _ => simp [pathInfo, laterMoves]
      | b :: c :: rest, ih =>
          have e : (pathInfo sc W C early (a :: b :: c :: rest)).blocked =
              ((edgeInfo sc W C early a b c).blocked || (pathInfo sc W C early (b :: c :: rest)).blocked) := rfl
          rw [e, Bool.or_eq_true, ih]
          have hb : (edgeInfo sc W C early a b c).blocked = true ↔ ∃ r, nodeRisk sc W ⟨c, b⟩ = some r ∧ C.maxCellRisk < r := by
            unfold edgeInfo
            dsimp only
            cases nodeRisk sc W ⟨c, b⟩ with
            | none => simp
            | some r => simp
          rw [hb]
          show _ ↔ ∃ m ∈ (b, c) :: laterMoves (b :: c :: rest), _
          simp only [List.mem_cons, exists_eq_or_imp]

/-! ## Non-vacuity -/

/-- two steps up and then away: the layers between layer 2 and layer 4 -/
example : layersBetween 4 2 = 1 / 10 + 833 / 10000 := by
  unfold layersBetween altPriorTable
  rw [show min (4 : ℤ) 2 = ((2 : ℕ) : ℤ) from rfl, show max (4 : ℤ) 2 = ((4 : ℕ) : ℤ) from rfl, Int.toNat_natCast, Int.toNat_natCast]
  norm_num

example : laterMoves [⟨0, 0, 0⟩, ⟨1, 0, 0⟩, ⟨2, 0, 0⟩, ⟨2, 1, 0⟩] = [(⟨1, 0, 0⟩, ⟨2, 0, 0⟩), (⟨2, 0, 0⟩, ⟨2, 1, 0⟩)] := rfl

/-- a way back of seven cells out of eight: the seventh has a low risk -/
example : ∃ (risk : Cell → Option ℚ) (st st' : GpSt ℚ), goBack risk st = some st' ∧ st'.path.length < st.back.length :=
  ⟨fun c => some (if c.x = 1 then 1 / 4 else 3 / 4),
   { pos := ⟨0, 0, 0⟩, vel := ⟨0, 0, 0⟩, goal := ⟨⟨0, 0, 0⟩, 1, false⟩, goingBack := false, blocked := false,
     back := (List.range 8).map fun i => ⟨i, 0, 0⟩, maxIter := 10, factor := 1, path := [], waypoints := [] }, _, rfl, by decide +kernel⟩

end Global
end Avoidance
