import Verif.GpFollow
import Verif.GpSimplify
import Verif.GpFallback

/-!
# Model: a run of the whole global planner node (global_planner/src/nodes/global_planner_node.cpp,
global_planner/src/library/global_planner.cpp)

The parts modelled in `GpNode`, `GpSearch`, `GpReplan`, `GpFallback`, `GpState`, `GpSimplify` and `GpFollow` are put together: one
state, and one step per callback.

Simplifications:
* Each callback is one step. The code does not ensure that (see C100); `lateGoal` at the end models the one interleaving that
  matters for the goals.
* `CELL_SCALE` does not change during the run; heuristic and order of the queue are arbitrary in each search (they do not affect
  which paths are permitted).
* `curr_pos_`/`curr_yaw_` and `last_pos_` are set from the same message; the yaw used for path messages is that of `last_pos_`.
* Output: only the setpoint. Paths published for display are C80, C81 and C98.
-/

namespace Avoidance
namespace Global

noncomputable section

/-! ## Searching with the risks as they are answered -/

/-- `getRisk(Cell)`, global_planner.cpp 181-194: the answer, from the cache or computed. -/
def seenRisk (sc : ℝ) (m : CacheSt ℝ) (c : Cell) : Option ℝ := (cachedRisk sc m c).map Prod.fst

/-- `getRisk(Node)`, global_planner.cpp 196-203, from the answers of `getRisk(Cell)` (`nodeRisk` with any answers). -/
def moveRisk (sc : ℝ) (ρ : Cell → Option ℝ) (n : Node) : Option ℝ :=
  match (n.cells sc).mapM ρ with
  | none => none
  | some l => if (n.cells sc).length = 0 then none else some (l.sum / ((n.cells sc).length : ℝ) * n.length sc)

/-- `isLegal`, global_planner.cpp 177-179. -/
def moveLegal (sc : ℝ) (ρ : Cell → Option ℝ) (C : CostCfg) (n : Node) : Prop :=
  pos sc n.cell.z < (C.maxAltitude : ℝ) ∧ ∃ r, moveRisk sc ρ n = some r ∧ r < C.maxCellRisk

/-- `getEdgeCost`, global_planner.cpp 235-246. -/
def moveCost (sc : ℝ) (ρ : Cell → Option ℝ) (C : CostCfg) (early : Cell → Bool) (k : NodeKind) (u v : Node) : Option ℝ :=
  (moveRisk sc ρ v).map fun r =>
    edgeDist sc C u.cell v.cell + C.riskFactor * r +
      (if early u.cell = true then 2 else 1) * (C.smooth * (u.rotation k v) ^ 2)

open Classical in
/-- The search problem of `findSmoothPath` (search_tools.h 127-202) with the answers `ρ`. -/
def riskProblem (sc radius : ℝ) (ρ : Cell → Option ℝ) (C : CostCfg) (early : Cell → Bool) (k : NodeKind) (t : GoalCell ℝ)
    (heur : List Node → Node → ℝ) (pick : List ((Node × Bool) × ℝ) → ℕ) : Problem Node (Cell × Option Cell) ℝ where
  key := nodeKey k
  nbrs := nodeNeighbors sc radius k
  legal n := decide (moveLegal sc ρ C n)
  cost := moveCost sc ρ C early k
  heur := heur
  goal n := decide (t.withinPlan sc n.cell)
  pick := pick

/-! ## Configuration and state -/

/-- What can be reconfigured, as far as it is used here: global_planner_node.cpp 157-199. -/
structure GConf where
  cost : CostCfg
  speed : SpeedCfg
  replan : ReplanCfg ℝ
  /-- `goal_must_be_free_` -/
  mustBeFree : Bool
  /-- `SPEEDNODE_RADIUS` -/
  radius : ℝ
  /-- `search_time_` -/
  searchTime : ℝ
  minAltitude : ℤ
  simplifyIterations : ℤ
  simplifyMargin : ℝ
  clickAlt : ℝ
  clickRadius : ℝ

/-- The state of the node. -/
structure GlobalSt where
  gp : GpSt ℝ
  fl : FollowSt
  mem : CacheSt ℝ
  conf : GConf
  /-- `last_wp_time_`: the last map taken -/
  lastMap : ℝ

/-- The parameters of the last resort: global_planner.cpp 475-476, search_tools.h 265-353. -/
def GConf.old (C : GConf) (factor : ℝ) : OldCfg ℝ :=
  ⟨C.minAltitude, C.cost.maxAltitude, C.cost.maxCellRisk, C.cost.riskFactor, C.cost.up, C.cost.down, factor⟩

open Classical in
/-- The test of global_planner.cpp 241: the edge starts within 3 m of the vehicle's cell and the vehicle is faster than 1 m/s. -/
def searchTurn (sc : ℝ) (st : GpSt ℝ) (u : Cell) : Bool := decide (u.dist3D sc (cellOf sc st.pos) < 3 ∧ 1 < st.vel.norm)

/-- What `findPath` (global_planner.cpp 413-480) can leave behind when it is called in the state `st` with the answers `ρ`: the
searches are searches of `riskProblem` from the start node, and the last resort is `find2DPath`. -/
def IsFound (sc : ℝ) (ρ : Cell → Option ℝ) (C : GConf) (st : GpSt ℝ) (f : Found ℝ) : Prop :=
  ∃ (search : Search ℝ) (fallback : ℤ → Option (List Cell)) (n : ℕ),
    (∀ c, ∃ heur pick m o it,
      findSmoothPath (riskProblem sc C.radius ρ C.cost (searchTurn sc st) c.kind st.goal heur pick) (startNode sc st.pos st.vel C.searchTime) c.budget m =
        some (o, it) ∧
      search c = (o.map (pathCells (startNode sc st.pos st.vel C.searchTime)), it)) ∧
    (∀ r, replan C.replan search st.maxIter n = some r → r.best = none →
      ∃ pick m, find2DPath sc (C.old r.factor) ρ (startNode sc st.pos st.vel C.searchTime).cell st.goal.cell pick 5000 m =
        some (fallback 5000)) ∧
    findPath C.replan search fallback st.maxIter n = some f

/-! ## Steps -/

/-- The callbacks. -/
inductive GEvent
  /-- `positionCallback`, global_planner_node.cpp 206-240 -/
  | position (p : GPose ℝ ℝ)
  /-- `velocityCallback`, 201-203 -/
  | velocity (v : V3 ℝ)
  /-- `octomapFullCallback`, 264-277, with the two readings of the clock; `none`: not an `OcTree` -/
  | map (t1 t2 : ℝ) (t : Option (Cell → Option ℝ)) (resolution : ℝ)
  /-- `depthCameraCallback`, 280-305: the cells of the points of one cloud -/
  | obstacles (cs : List Cell)
  /-- `dynamicReconfigureCallback`, 157-199 -/
  | reconfigure (C : GConf) (flow explore : ℝ) (maxIter : ℤ)
  /-- `fcuInputGoalCallback`, 255-261 -/
  | fcu (valid : Bool) (p : V3 ℝ)
  /-- `moveBaseSimpleCallback`, 251-253 -/
  | click (x y : ℝ)
  /-- `plannerLoopCallback`, 335-352: what `findPath` leaves behind, if it is called, and the cells whose risk is asked for -/
  | plan (f : Found ℝ) (asked : List Cell)
  /-- `cmdLoopCallback`, 322-333 -/
  | command

/-- Several questions in a row (global_planner.cpp 181-194). -/
def askAll (sc : ℝ) : CacheSt ℝ → List Cell → Option (CacheSt ℝ)
  | m, [] => some m
  | m, c :: l => match cachedRisk sc m c with
    | none => none
    | some r => askAll sc r.2 l

/-- The points of one cloud: global_planner_node.cpp 293-299. -/
def addObstacles (m : CacheSt ℝ) (cs : List Cell) : CacheSt ℝ :=
  { m with world := { m.world with occupied := fun d => decide (d ∈ cs) || m.world.occupied d } }

/-- The goal of this cycle: global_planner_node.cpp 337-340. -/
def cycleStart (sc : ℝ) (st : GpSt ℝ) : GpSt ℝ :=
  if st.goal.withinPosition sc st.pos ∨ st.blocked = true then popNextGoal sc st else st

/-- What planning uses: global_planner.cpp 484-511. -/
def planEnv (sc : ℝ) (st : GlobalSt) (f : Found ℝ) : PlanEnv ℝ :=
  ⟨seenRisk sc st.mem, isOccupied sc st.mem.world, st.conf.mustBeFree, st.conf.cost.maxCellRisk, fun _ => f⟩

/-- The cost used by `simplifyPath` (node type `Node`), global_planner_node.cpp 377, search_tools.h 86-95. -/
def simplifyCost (sc : ℝ) (st : GlobalSt) : Node → Node → Option ℝ :=
  moveCost sc (seenRisk sc st.mem) st.conf.cost (searchTurn sc st.gp) .node

/-- `plannerLoopCallback`, global_planner_node.cpp 335-352 with `publishPath` 369-382. -/
def planTick (sc : ℝ) (st : GlobalSt) (f : Found ℝ) (asked : List Cell) : Option GlobalSt :=
  (askAll sc st.mem asked).map fun m =>
    let gp := plannerLoop sc (planEnv sc st f) st.gp
    { st with
      gp := gp
      mem := m
      fl := publishPath sc st.fl.here.orientation
        (fun p => nodeSimplify (simplifyCost sc st) p st.conf.simplifyIterations st.conf.simplifyMargin) st.fl gp.path }

/-- `cmdLoopCallback` / `publishSetpoint`, global_planner_node.cpp 322-333, 390-431. The risk is asked for only with the speed-up
heuristics. Outer `none`: undefined; inner `none`: the published position is NaN. -/
def commandTick (sc : ℝ) (st : GlobalSt) : Option (GlobalSt × Option (GPose ℝ ℝ)) :=
  match (if st.conf.speed.speedupHeuristics = true then cachedRisk sc st.mem (cellOf sc st.fl.here.position) else some (0, st.mem)) with
  | none => none
  | some r => match commandedSpeed st.conf.speed r.1 with
    | none => none
    | some v => some ({ st with mem := r.2, fl := { st.fl with speed := v } },
        (setpoint st.fl.goal.position st.fl.here.position v).map fun p => ⟨p, st.fl.goal.orientation⟩)

/-- One callback: the new state and what is published as setpoint (`none`: nothing; `some none`: NaN). Outer `none`: undefined. -/
def gStep (sc : ℝ) (st : GlobalSt) : GEvent → Option (GlobalSt × Option (Option (GPose ℝ ℝ)))
  | .position p => some ({ st with gp := setPose sc st.gp p.position, fl := followPosition st.fl p }, none)
  | .velocity v => some ({ st with gp := { st.gp with vel := v } }, none)
  | .map t1 t2 t res =>
    if (mapCallback st.lastMap t1 t2).2 = true then
      (cacheStep sc st.mem (.map t res)).map fun m => ({ st with mem := m, lastMap := (mapCallback st.lastMap t1 t2).1 }, none)
    else some (st, none)
  | .obstacles cs => some ({ st with mem := addObstacles st.mem cs }, none)
  | .reconfigure C flow explore maxIter =>
    some ({ st with
            conf := C, gp := { st.gp with maxIter := maxIter },
            mem := { st.mem with world := { st.mem.world with flow := flow, explore := explore } } }, none)
  | .fcu valid p => some ({ st with gp := fcuGoal sc st.gp valid p }, none)
  | .click x y => some ({ st with gp := clickGoal sc st.conf.clickAlt st.conf.clickRadius st.gp x y }, none)
  | .plan f asked => (planTick sc st f asked).map fun s => (s, none)
  | .command => (commandTick sc st).map fun r => (r.1, some r.2)

/-- Does this cycle search (global_planner.cpp 484-497)? -/
def searches (sc : ℝ) (st : GlobalSt) : Prop :=
  ¬ (st.conf.mustBeFree = true ∧ ∃ r, seenRisk sc st.mem (cycleStart sc st.gp).goal.cell = some r ∧ st.conf.cost.maxCellRisk < r) ∧
  isOccupied sc st.mem.world (cellOf sc st.gp.pos) = false

/-- The searches of a planning cycle are searches of the planner. -/
def Genuine (sc : ℝ) (st : GlobalSt) : GEvent → Prop
  | .plan f _ => searches sc st → IsFound sc (seenRisk sc st.mem) st.conf (cycleStart sc st.gp) f
  | _ => True

/-- One entry of the record of a run: the state before, the event and what was published. -/
structure Entry where
  st : GlobalSt
  ev : GEvent
  out : Option (Option (GPose ℝ ℝ))

/-- Every run of the node from `st0`, with its record. -/
inductive Run (sc : ℝ) (st0 : GlobalSt) : List Entry → GlobalSt → Prop
  | start : Run sc st0 [] st0
  | step {log st st' ev out} (h : Run sc st0 log st) (hg : Genuine sc st ev) (hs : gStep sc st ev = some (st', out)) :
      Run sc st0 (log ++ [⟨st, ev, out⟩]) st'

/-- The node after its constructor (global_planner_node.cpp 60-69, 87, global_planner.h 60-65): no path, goal at the start position
(`GoalCell(x, y, z)`: radius 1), nothing cached, no map. -/
structure Fresh (sc : ℝ) (st : GlobalSt) (startPos : V3 ℝ) : Prop where
  goal : st.gp.goal = ⟨cellOf sc startPos, 1, false⟩
  path : st.gp.path = []
  waypoints : st.gp.waypoints = []
  blocked : st.gp.blocked = false
  flPath : st.fl.path = []
  flGoal : st.fl.goal = ⟨startPos, 0⟩
  cache : st.mem.cache = fun _ => none
  tree : st.mem.world.tree = none

/-! ## A goal that arrives during the search -/

/-- `getGlobalPath` (global_planner.cpp 484-511) when `setGoal g` runs in another thread between the call of `findPath` (line 499) and
its return: the search works on a copy of the old goal (`GoalCell t = goal_pos_`, line 417), the results are written to the new one. -/
def lateGoal {K : Type*} [Field K] [LinearOrder K] [IsStrictOrderedRing K] [FloorRing K] (sc : K) (E : PlanEnv K) (st : GpSt K) (g : GoalCell K) :
    GpSt K × Bool :=
  if E.mustBeFree = true ∧ tooRisky E st.goal.cell = true then (setGoal { st with blocked := true } g, false)
  else if E.occupied (cellOf sc st.pos) = true then (setGoal st g, false)
  else
    let f := E.find st
    let st := setGoal st g
    match f.path with
    | none => ({ st with factor := f.factor, maxIter := f.maxIter, blocked := true }, false)
    | some p => ({ st with factor := f.factor, maxIter := f.maxIter, path := p }, true)

/-- `planPath` (global_planner_node.cpp 127-144) around it. -/
def latePlanPath {K : Type*} [Field K] [LinearOrder K] [IsStrictOrderedRing K] [FloorRing K] (sc : K) (E : PlanEnv K) (st : GpSt K) (g : GoalCell K) :
    GpSt K :=
  let r := lateGoal sc E st g
  if r.2 = false then r.1 else if 105 / 100 < r.1.factor then setIntermediateGoal r.1 else r.1

end

end Global
end Avoidance
