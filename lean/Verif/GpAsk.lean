import Verif.GpRun
import Verif.GpHeur

/-!
# Model: asking about a point (global_planner_node.cpp 241-249, 384-388, global_planner/include/global_planner/analysis.h 101-131)

`clicked_point` messages make the global planner print what it knows about the point.

Simplifications: what is printed is a record of numbers instead of a text (the numbers are printed with two digits);
`heuristic_cache_` and the entry made in `visitor_.seen_count_` (global_planner.cpp 329-331) are not modelled: the first is never
read, the second is 0.
-/

namespace Avoidance
namespace Global

noncomputable section

/-- The last lines: analysis.h 118-130. -/
inductive LeafLine
  /-- 119-126: probability, posterior, is the cell in `occupied_`, and the value given for it -/
  | known (prob post : ℝ) (inOccupied : Bool) (value : ℝ)
  /-- 128 -/
  | notInTree (value : ℝ)

/-- What is printed: analysis.h 105-130. -/
structure PointInfo where
  riskCost : ℝ
  risk : ℝ
  single : ℝ
  /-- the six "neighbors" in the order of the arguments: 109-114 -/
  neighbors : List ℝ
  heuristic : ℝ
  leaf : LeafLine

/-- `riskHeuristic`, global_planner.cpp 249-264, with the memory of `getRisk`. `none`: undefined. -/
def askRiskHeuristic (sc : ℝ) (m : CacheSt ℝ) (C : CostCfg) (u goal : Cell) : Option (ℝ × CacheSt ℝ) :=
  if u = goal then some (0, m)
  else
    let unexplored := (1 + 6 * m.world.flow) * m.world.explore * C.riskFactor
    let xyRisk := (u.diag2D sc goal - 1) * unexplored * altPrior sc u
    match accumulatedAt u.z, accumulatedAt goal.z with
    | some a, some b => (cachedRisk sc m goal).map fun r => (xyRisk + unexplored * |a - b| + r.1 * C.riskFactor, r.2)
    | _, _ => none

/-- `getHeuristic(Node(cell, cell), goal_pos_)`, global_planner.cpp 315-333: `count` is `visitor_.seen_count_[cell]`, left over from the last search. -/
def askHeuristic (sc : ℝ) (m : CacheSt ℝ) (C : CostCfg) (H : HeurCfg) (count : ℕ) (u goal : Cell) : Option (ℝ × CacheSt ℝ) :=
  (if H.useRisk = true then askRiskHeuristic sc m C u goal else some (0, m)).map fun r =>
    (H.overestimate * u.diag2D sc goal + altitudeHeuristic H u goal + smoothnessHeuristic H ⟨u, u⟩ goal + r.1 +
      (if H.useSpeedup = true then (count : ℝ) else 0), r.2)

/-- `octree_->search(x, y, z)` with the rest of the function: analysis.h 117-130. `full` is the search at full depth in the current map. `none`: null pointer. -/
def leafLine (sc : ℝ) (W : RiskWorld ℝ) (full : V3 ℝ → Option ℝ) (p : V3 ℝ) : Option LeafLine :=
  match W.tree with
  | none => none
  | some _ => match full p with
    | some lo =>
      let post := posterior (altPrior sc (cellOf sc p)) (W.prob lo)
      if W.occupied (cellOf sc p) = true then some (.known (W.prob lo) post true post)
      else some (.known (W.prob lo) post false (W.explore * post))
    | none => some (.notInTree (W.explore * altPrior sc (cellOf sc p)))

/-- `printPointStats`, analysis.h 101-131: what is printed and the memory afterwards. `none`: undefined. -/
def printPointStats (sc : ℝ) (m : CacheSt ℝ) (C : CostCfg) (H : HeurCfg) (count : ℕ) (full : V3 ℝ → Option ℝ) (goal : Cell) (p : V3 ℝ) :
    Option (PointInfo × CacheSt ℝ) :=
  match cachedRisk sc m (cellOf sc p) with
  | none => none
  | some r => match askHeuristic sc r.2 C H count (cellOf sc p) goal with
    | none => none
    | some h => (leafLine sc h.2.world full p).map fun l =>
        ({ riskCost := C.riskFactor * r.1
           risk := r.1
           single := singleRisk sc r.2.world (cellOf sc p)
           neighbors := [singleRisk sc r.2.world (cellOf sc ⟨p.x, p.y + 1, p.z⟩), singleRisk sc r.2.world (cellOf sc ⟨p.x, p.y, p.z + 1⟩),
             singleRisk sc r.2.world (cellOf sc ⟨p.x - 1, p.y, p.z⟩), singleRisk sc r.2.world (cellOf sc ⟨p.x + 1, p.y, p.z⟩),
             singleRisk sc r.2.world (cellOf sc ⟨p.x, p.y - 1, p.z⟩), singleRisk sc r.2.world (cellOf sc ⟨p.x, p.y, p.z - 1⟩)]
           heuristic := h.1
           leaf := l }, h.2)

/-- `clickedPointCallback`, global_planner_node.cpp 241-249: what is printed, the state of the node and `last_clicked_points`. -/
def clickPoint (sc : ℝ) (st : GlobalSt) (H : HeurCfg) (count : ℕ) (full : V3 ℝ → Option ℝ) (clicked : List (V3 ℝ)) (p : V3 ℝ) :
    Option (PointInfo × GlobalSt × List (V3 ℝ)) :=
  (printPointStats sc st.mem st.conf.cost H count full st.gp.goal.cell p).map fun r =>
    (r.1, { st with mem := r.2 }, clicked ++ [⟨p.x, p.y, st.gp.pos.z⟩])

end

end Global
end Avoidance
