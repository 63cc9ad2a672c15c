import Verif.GpNode
import Verif.Cost

/-!
# Model: early turns and the cost summary of a path (global_planner/src/library/global_planner.cpp 243, 369-396)
-/

namespace Avoidance
namespace Global

noncomputable section

open Classical in
/-- The test for an early turn, global_planner.cpp 243: the edge starts within 3 m of the cell of the vehicle and the vehicle is
faster than 1 m/s. -/
def earlyTurn (sc : ℝ) (here vel : V3 ℝ) (u : Cell) : Bool := decide (u.dist3D sc (cellOf sc here) < 3 ∧ 1 < vel.norm)

/-- `PathInfo`, global_planner.h 22-28; `none`: NaN or undefined. -/
structure PathInfo where
  cost : Option ℝ
  dist : ℝ
  risk : Option ℝ
  smoothness : ℝ
  blocked : Bool

/-- The edge added to the summary in one pass of the loop, global_planner.cpp 386-393: from `(b, a)` to `(c, b)`. -/
def edgeInfo (sc : ℝ) (W : RiskWorld ℝ) (C : CostCfg) (early : Cell → Bool) (a b c : Cell) : PathInfo :=
  { cost := edgeCost sc W C early .node ⟨b, a⟩ ⟨c, b⟩
    dist := edgeDist sc C b c
    risk := (nodeRisk sc W ⟨c, b⟩).map (C.riskFactor * ·)
    smoothness := C.smooth * ((⟨b, a⟩ : Node).rotation .node ⟨c, b⟩) ^ 2
    blocked := match nodeRisk sc W ⟨c, b⟩ with
      | none => false
      | some r => decide (C.maxCellRisk < r) }

/-- `getPathInfo`, global_planner.cpp 383-396: the edges are summed from the front; the sum here starts from the back (sums of exact
numbers). -/
def pathInfo (sc : ℝ) (W : RiskWorld ℝ) (C : CostCfg) (early : Cell → Bool) : List Cell → PathInfo
  | a :: b :: c :: rest =>
    let e := edgeInfo sc W C early a b c
    let p := pathInfo sc W C early (b :: c :: rest)
    { cost := match e.cost, p.cost with
        | some x, some y => some (x + y)
        | _, _ => none
      dist := e.dist + p.dist
      risk := match e.risk, p.risk with
        | some x, some y => some (x + y)
        | _, _ => none
      smoothness := e.smoothness + p.smoothness
      blocked := e.blocked || p.blocked }
  | _ => ⟨some 0, 0, some 0, 0, false⟩

/-- The risks of `getPathWithRiskMsg`, global_planner.cpp 375-378: of the cells of the published positions. -/
def pathRisks (sc : ℝ) (W : RiskWorld ℝ) (path : List Cell) : List (Option ℝ) := path.map fun c => cellRisk sc W (cellOf sc (c.toPoint sc))

end

end Global
end Avoidance
