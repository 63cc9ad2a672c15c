import Verif.GpSearch
import Verif.Angles

/-!
# Model: search nodes and risk (global_planner/src/library/node.cpp, node.h, global_planner.cpp 113-246, common.h 107-113)

* Coordinates and risks range over an ordered field `K` (ℝ where a square root or an angle occurs).
* The octree is a function from cells to the log-odds stored for them at the search depth (`none`: not in the tree);
  `octomap::probability` is a parameter.
* `unordered_set<Cell>` is a list without duplicates.
-/

namespace Avoidance
namespace Global

/-- `Node`: node.h 12-32. -/
structure Node where
  cell : Cell
  parent : Cell
deriving DecidableEq, Repr, Inhabited

/-- The three node types: node.h 12, 55, 73. -/
inductive NodeKind
  | node
  | withoutSmooth
  | speed
deriving DecidableEq, Repr

/-- What equality and hash look at: node.cpp 8-12 (`Node`, `SpeedNode`), node.h 61-63 (`NodeWithoutSmooth`). -/
def nodeKey (k : NodeKind) (n : Node) : Cell × Option Cell :=
  match k with
  | .withoutSmooth => (n.cell, none)
  | _ => (n.cell, some n.parent)

section
variable {K : Type*} [Field K] [LinearOrder K] [IsStrictOrderedRing K] [FloorRing K]

/-- The square of `distance3D` (cell.cpp 36-38). -/
def Cell.distSq (sc : K) (a b : Cell) : K :=
  (pos sc a.x - pos sc b.x) ^ 2 + (pos sc a.y - pos sc b.y) ^ 2 + (pos sc a.z - pos sc b.z) ^ 2

/-- `dist > 0 && dist < SPEEDNODE_RADIUS` of node.h 86-87, with squares instead of the square root (see
`GpNodeProps.speedNear_iff`). -/
def speedNear (sc radius : K) (a b : Cell) : Bool := decide (0 < a.distSq sc b ∧ 0 < radius ∧ a.distSq sc b < radius ^ 2)

/-- `getNeighbors`: node.cpp 16-23 (`Node`, inherited by `NodeWithoutSmooth`), node.h 81-92 (`SpeedNode`). -/
def nodeNeighbors (sc radius : K) (k : NodeKind) (n : Node) : List Node :=
  match k with
  | .speed =>
    let ext := (n.cell.sub n.parent).add n.cell
    ⟨ext, n.cell⟩ :: (ext.neighbors.filter (speedNear sc radius n.cell)).map fun c => ⟨c, n.cell⟩
  | _ => n.cell.neighbors.map fun c => ⟨c, n.cell⟩

/-- `steps`: node.cpp 27-31. -/
def Node.steps (n : Node) : ℕ :=
  2 * max (n.cell.x - n.parent.x).natAbs (max (n.cell.y - n.parent.y).natAbs (n.cell.z - n.parent.z).natAbs)

/-- The `i`-th sample between parent and cell on one axis: node.cpp 33-35 and 38-40. -/
def sampleAxis (sc : K) (parent cell : ℤ) (steps i : ℕ) : K :=
  pos sc parent + (pos sc cell - pos sc parent) / (steps : K) * (i : K)

/-- The four cells inserted for one sample: node.cpp 41-44. -/
def cellsAt (sc : K) (x y z : K) : List Cell :=
  [cellOf sc ⟨x + 1 / 10, y + 1 / 10, z⟩, cellOf sc ⟨x + 1 / 10, y - 1 / 10, z⟩,
   cellOf sc ⟨x - 1 / 10, y + 1 / 10, z⟩, cellOf sc ⟨x - 1 / 10, y - 1 / 10, z⟩]

/-- `getCells`, node.cpp 25-47. (For `steps = 0` the code divides by zero but never uses the result.) -/
def Node.cells (sc : K) (n : Node) : List Cell :=
  (((List.range n.steps).map fun (i : ℕ) =>
    cellsAt sc (sampleAxis sc n.parent.x n.cell.x n.steps (i + 1)) (sampleAxis sc n.parent.y n.cell.y n.steps (i + 1))
      (sampleAxis sc n.parent.z n.cell.z n.steps (i + 1))).flatten).dedup

/-! ## Risk -/

/-- `posterior`, common.h 107-112. -/
def posterior (p prior : K) : K := p * prior / (p * prior + (1 - p) * (1 - prior) + 1 / 10000)

/-- `alt_prior_`, global_planner.h 40-42. -/
def altPriorTable : List K :=
  [1, 2/10, 1333/10000, 1/10, 833/10000, 5/100, 33/1000, 25/1000, 166/10000, 125/10000, 1/1000, 1/1000, 1/1000, 1/1000, 1/1000,
   1/1000, 1/1000, 1/1000, 1/1000, 1/1000, 1/1000, 1/1000, 1/1000, 1/1000, 1/1000]

/-- `std::round`: half away from zero. -/
def roundAway (x : K) : ℤ := if 0 ≤ x then ⌊x + 1 / 2⌋ else ⌈x - 1 / 2⌉

/-- `getAltPrior`, global_planner.cpp 163-173. The comparison `index > alt_prior_.size() - 1` is made in `size_t`: a negative
index becomes a huge number, so the first branch is taken and the branch for `index < 0` is never reached. -/
def altPrior (sc : K) (c : Cell) : K :=
  let index := roundAway (pos sc c.z)
  if index < 0 ∨ (altPriorTable (K := K)).length - 1 < index.toNat then (altPriorTable (K := K)).getLast (by simp [altPriorTable])
  else (altPriorTable (K := K)).getD index.toNat 0

/-- What the risk of a cell depends on: the map, the observed obstacle cells and the parameters
(global_planner.h 33-92, 146-148). -/
structure RiskWorld (K : Type*) where
  /-- `octree_` with `search` at the search depth and `getValue`; `none`: no map received -/
  tree : Option (Cell → Option K)
  /-- `octomap::probability` -/
  prob : K → K
  /-- `occupied_` -/
  occupied : Cell → Bool
  /-- `explore_penalty_` -/
  explore : K
  /-- `neighbor_risk_flow_` -/
  flow : K
  /-- `robot_radius_` -/
  robotRadius : K
  /-- `octree_resolution_` -/
  resolution : K

/-- `getSingleCellRisk`, global_planner.cpp 133-161. -/
def singleRisk (sc : K) (W : RiskWorld K) (c : Cell) : K :=
  if c.z < 1 then 1
  else match W.tree with
    | none => 1
    | some t => match t c with
      | some lo =>
        if W.occupied c = true ∨ 0 < lo then posterior (altPrior sc c) (W.prob lo)
        else W.explore * posterior (altPrior sc c) (W.prob lo)
      | none => W.explore * altPrior sc c

/-- `isOccupied`, global_planner.cpp 175. -/
def isOccupied (sc : K) (W : RiskWorld K) (c : Cell) : Bool := decide (1 / 2 < singleRisk sc W c)

/-- `isNearWall`, global_planner.cpp 114-121. -/
def isNearWall (sc : K) (W : RiskWorld K) (c : Cell) : Bool := c.diagonalNeighbors.any (isOccupied sc W)

/-- `getRisk(Cell)` without the cache, global_planner.cpp 186-190. `none`: undefined (see `Cell.flowNeighbors`). -/
def cellRisk (sc : K) (W : RiskWorld K) (c : Cell) : Option K :=
  (c.flowNeighbors ⌈W.robotRadius / W.resolution⌉).map fun l =>
    singleRisk sc W c + (l.map fun n => W.flow * singleRisk sc W n).sum

end

/-- `getLength`, node.cpp 49. -/
noncomputable def Node.length (sc : ℝ) (n : Node) : ℝ := n.parent.dist3D sc n.cell

/-- `getRisk(Node)`, global_planner.cpp 196-203. `none`: NaN (division by zero for a node without cells) or undefined. -/
noncomputable def nodeRisk (sc : ℝ) (W : RiskWorld ℝ) (n : Node) : Option ℝ :=
  match (n.cells sc).mapM (cellRisk sc W) with
  | none => none
  | some l => if (n.cells sc).length = 0 then none else some (l.sum / ((n.cells sc).length : ℝ) * n.length sc)

/-- `angle`, cell.cpp 55. -/
noncomputable def Cell.angle (c : Cell) : ℝ := atan2 (c.y : ℝ) (c.x : ℝ)

/-- `getXYRotation`, node.cpp 65-78. The second test mixes `other_diff.x` and `this_diff.y`, as in the code. -/
noncomputable def Node.xyRotation (n o : Node) : ℝ :=
  let td := n.cell.sub n.parent
  let od := o.cell.sub o.parent
  if (td.x = 0 ∧ td.y = 0) ∨ (od.x = 0 ∧ td.y = 0) then 0
  else |angleToRange (od.angle - td.angle)| / (Real.pi / 4)

/-- `getRotation`, node.cpp 53-63 and node.h 67 (`NodeWithoutSmooth`: no rotation). -/
noncomputable def Node.rotation (k : NodeKind) (n o : Node) : ℝ :=
  match k with
  | .withoutSmooth => 0
  | _ => (if Xor (n.cell.z - n.parent.z = 0) (o.cell.z - o.parent.z = 0) then 1 / 2 else 0) + n.xyRotation o

/-- The parameters of the edge cost: global_planner.h 76-92. -/
structure CostCfg where
  maxAltitude : ℤ
  maxCellRisk : ℝ
  smooth : ℝ
  riskFactor : ℝ
  up : ℝ
  down : ℝ

/-- `isLegal`, global_planner.cpp 177-179 (comparison with a NaN: false). -/
noncomputable def isLegal (sc : ℝ) (W : RiskWorld ℝ) (C : CostCfg) (n : Node) : Prop :=
  pos sc n.cell.z < (C.maxAltitude : ℝ) ∧ ∃ r, nodeRisk sc W n = some r ∧ r < C.maxCellRisk

/-- `getEdgeDist`, global_planner.cpp 124-130. -/
noncomputable def edgeDist (sc : ℝ) (C : CostCfg) (u v : Cell) : ℝ :=
  u.dist2D sc v + C.up * max (pos sc v.z - pos sc u.z) 0 + C.down * max (-(pos sc v.z - pos sc u.z)) 0

/-- `getEdgeCost`, global_planner.cpp 235-246. `early u` is the test of lines 243: the edge starts within 3 m of the vehicle and
the vehicle is faster than 1 m/s. -/
noncomputable def edgeCost (sc : ℝ) (W : RiskWorld ℝ) (C : CostCfg) (early : Cell → Bool) (k : NodeKind) (u v : Node) : Option ℝ :=
  (nodeRisk sc W v).map fun r =>
    edgeDist sc C u.cell v.cell + C.riskFactor * r +
      (if early u.cell = true then 2 else 1) * (C.smooth * (u.rotation k v) ^ 2)

open Classical in
/-- The search problem `findSmoothPath` solves for the planner: search_tools.h 127-202 with the callbacks of
global_planner.cpp. The heuristic and the order of the queue are parameters. -/
noncomputable def plannerProblem (sc radius : ℝ) (W : RiskWorld ℝ) (C : CostCfg) (early : Cell → Bool) (k : NodeKind) (t : GoalCell ℝ)
    (heur : List Node → Node → ℝ) (pick : List ((Node × Bool) × ℝ) → ℕ) : Problem Node (Cell × Option Cell) ℝ where
  key := nodeKey k
  nbrs := nodeNeighbors sc radius k
  legal n := decide (isLegal sc W C n)
  cost := edgeCost sc W C early k
  heur := heur
  goal n := decide (t.withinPlan sc n.cell)
  pick := pick

/-- The cells `findSmoothPath` returns for a path of nodes: search_tools.h 183-191. -/
def pathCells (s : Node) (l : List Node) : List Cell := s.parent :: l.map Node.cell

end Global
end Avoidance
