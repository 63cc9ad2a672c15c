import Verif.GpNode

/-!
# Model: the heuristic of the planner (global_planner/src/library/global_planner.cpp 249-333, 19-27)
-/

namespace Avoidance
namespace Global

/-- The parameters of the heuristic: global_planner.h 76-92. -/
structure HeurCfg where
  overestimate : ℝ
  smooth : ℝ
  vertToHor : ℝ
  up : ℝ
  down : ℝ
  useRisk : Bool
  useSpeedup : Bool

/-- `altitudeHeuristic`, global_planner.cpp 306-312. -/
noncomputable def altitudeHeuristic (H : HeurCfg) (u goal : Cell) : ℝ :=
  if 0 < goal.z - u.z then H.up * |((goal.z - u.z : ℤ) : ℝ)| else H.down * |((goal.z - u.z : ℤ) : ℝ)|

/-- `smoothnessHeuristic`, global_planner.cpp 281-303. -/
noncomputable def smoothnessHeuristic (H : HeurCfg) (u : Node) (goal : Cell) : ℝ :=
  if u.cell.x = goal.x ∧ u.cell.y = goal.y then 0
  else if u.cell.x = u.parent.x ∧ u.cell.y = u.parent.y then H.smooth * H.vertToHor
  else H.smooth * (|angleToRange ((goal.sub u.cell).angle - (u.cell.sub u.parent).angle)| / (Real.pi / 4) +
    (if u.cell.z = goal.z then 0 else 1))

/-- `accumulated_alt_prior_`, global_planner.cpp 20-27: the sums of the first entries of the table. -/
noncomputable def accumulatedPrior : List ℝ := (List.range (altPriorTable (K := ℝ)).length).map fun i => ((altPriorTable (K := ℝ)).take (i + 1)).sum

/-- `accumulated_alt_prior_[z]`, global_planner.cpp 260; `none`: the index is outside the vector (undefined). -/
noncomputable def accumulatedAt (z : ℤ) : Option ℝ := if 0 ≤ z then accumulatedPrior[z.toNat]? else none

/-- `riskHeuristic`, global_planner.cpp 249-264. `none`: undefined. -/
noncomputable def riskHeuristic (sc : ℝ) (W : RiskWorld ℝ) (C : CostCfg) (u goal : Cell) : Option ℝ :=
  if u = goal then some 0
  else
    let unexplored := (1 + 6 * W.flow) * W.explore * C.riskFactor
    let xyRisk := (u.diag2D sc goal - 1) * unexplored * altPrior sc u
    match accumulatedAt u.z, accumulatedAt goal.z, cellRisk sc W goal with
    | some a, some b, some r => some (xyRisk + unexplored * |a - b| + r * C.riskFactor)
    | _, _, _ => none

/-- `seen_count_` of the visitor: how often the cell was pushed since the search began (visitor.h 20-23). -/
def seenCount (hist : List Node) (c : Cell) : ℕ := (hist.filter fun n => decide (n.cell = c)).length

/-- `getHeuristic`, global_planner.cpp 315-333, as it is called in search_tools.h 167: `perNeighbor` (line 169) comes after it,
so the count does not include the present push. `none`: undefined. The cache is written but never read (325-328). -/
noncomputable def getHeuristic (sc : ℝ) (W : RiskWorld ℝ) (C : CostCfg) (H : HeurCfg) (goal : Cell) (hist : List Node) (u : Node) : Option ℝ :=
  match (if H.useRisk = true then riskHeuristic sc W C u.cell goal else some 0) with
  | none => none
  | some r => some (H.overestimate * u.cell.diag2D sc goal + altitudeHeuristic H u.cell goal + smoothnessHeuristic H u goal + r +
      (if H.useSpeedup = true then ((seenCount hist u.cell : ℕ) : ℝ) else 0))

end Global
end Avoidance
