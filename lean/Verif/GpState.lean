import Verif.GpReplan

/-!
# Model: the state of the global planner and its node
(global_planner/src/library/global_planner.cpp 30-75, 181-194, 484-537; global_planner/src/nodes/global_planner_node.cpp 106-166, 251-297, 335-342)
-/

namespace Avoidance
namespace Global

section
variable {K : Type*} [Field K] [LinearOrder K] [IsStrictOrderedRing K] [FloorRing K]

/-- The state used by planning: global_planner.h 60-65, 85-86, 98-99 and global_planner_node.h 49 (`waypoints_`). -/
structure GpSt (K : Type*) where
  pos : V3 K
  vel : V3 K
  goal : GoalCell K
  goingBack : Bool
  /-- `goal_is_blocked_` -/
  blocked : Bool
  /-- `path_back_`, oldest first -/
  back : List Cell
  /-- `max_iterations_` -/
  maxIter : ℤ
  /-- `overestimate_factor_` -/
  factor : K
  /-- `curr_path_` -/
  path : List Cell
  waypoints : List (GoalCell K)

/-- `setPose`, global_planner.cpp 30-39. -/
def setPose (sc : K) (st : GpSt K) (p : V3 K) : GpSt K :=
  { st with
    pos := p
    back := if st.goingBack = false ∧ (st.back = [] ∨ st.back.getLast? ≠ some (cellOf sc p)) then st.back ++ [cellOf sc p] else st.back }

/-- `setGoal`, global_planner.cpp 42-48 (the two caches cleared there are never read: the reads are commented out). -/
def setGoal (st : GpSt K) (g : GoalCell K) : GpSt K := { st with goal := g, goingBack := false, blocked := false }

/-- `stop`, global_planner.cpp 534-537. (`setPath` also fills `path_cells_`, which is never read.) -/
def stop (sc : K) (st : GpSt K) : GpSt K := { setGoal st ⟨cellOf sc st.pos, 1, false⟩ with path := [cellOf sc st.pos] }

/-- `popNextGoal`, global_planner_node.cpp 113-124. -/
def popNextGoal (sc : K) (st : GpSt K) : GpSt K :=
  match st.waypoints with
  | g :: rest => setGoal { st with waypoints := rest } g
  | [] => if st.blocked = true then stop sc st else st

/-- What planning depends on besides the state. -/
structure PlanEnv (K : Type*) where
  /-- `getRisk(Cell)`; `none` is NaN -/
  risk : Cell → Option K
  /-- `isOccupied(Cell)` -/
  occupied : Cell → Bool
  /-- `goal_must_be_free_`, `max_cell_risk_` -/
  mustBeFree : Bool
  maxCellRisk : K
  /-- `findPath`, from the state -/
  find : GpSt K → Found K

/-- `getRisk(t) > max_cell_risk_`: false for a NaN. -/
def tooRisky (E : PlanEnv K) (c : Cell) : Bool := match E.risk c with
  | none => false
  | some r => decide (E.maxCellRisk < r)

/-- `getGlobalPath`, global_planner.cpp 484-511, with `setPath` 51-62. -/
def getGlobalPath (sc : K) (E : PlanEnv K) (st : GpSt K) : GpSt K × Bool :=
  if E.mustBeFree = true ∧ tooRisky E st.goal.cell = true then ({ st with blocked := true }, false)
  else if E.occupied (cellOf sc st.pos) = true then (st, false)
  else
    let f := E.find st
    match f.path with
    | none => ({ st with factor := f.factor, maxIter := f.maxIter, blocked := true }, false)
    | some p => ({ st with factor := f.factor, maxIter := f.maxIter, path := p }, true)

/-- `setIntermediateGoal`, global_planner_node.cpp 147-155: both divisions are integer divisions. -/
def setIntermediateGoal (st : GpSt K) : GpSt K :=
  if 10 < st.path.length then
    setGoal { st with waypoints := st.goal :: st.waypoints }
      ⟨st.path.getD (st.path.length / 2) default, ((st.path.length / 4 : ℕ) : K), true⟩
  else st

/-- `planPath`, global_planner_node.cpp 127-144. -/
def planPath (sc : K) (E : PlanEnv K) (st : GpSt K) : GpSt K :=
  let r := getGlobalPath sc E st
  if r.2 = false then r.1 else if 105 / 100 < r.1.factor then setIntermediateGoal r.1 else r.1

/-- `plannerLoopCallback`, global_planner_node.cpp 335-342, without what it prints and publishes. -/
def plannerLoop (sc : K) (E : PlanEnv K) (st : GpSt K) : GpSt K :=
  planPath sc E (if st.goal.withinPosition sc st.pos ∨ st.blocked = true then popNextGoal sc st else st)

/-- `fcuInputGoalCallback`, global_planner_node.cpp 255-261: only x and y are compared, and with the *current* goal. -/
def fcuGoal (sc : K) (st : GpSt K) (valid : Bool) (p : V3 K) : GpSt K :=
  let g : GoalCell K := ⟨cellOf sc p, 1, false⟩
  if valid = true ∧ (1 / 1000 < |pos sc st.goal.cell.x - pos sc g.cell.x| ∨ 1 / 1000 < |pos sc st.goal.cell.y - pos sc g.cell.y|) then setGoal st g
  else st

/-- `moveBaseSimpleCallback`, global_planner_node.cpp 251-253. -/
def clickGoal (sc : K) (alt radius : K) (st : GpSt K) (x y : K) : GpSt K := setGoal st ⟨cellOf sc ⟨x, y, alt⟩, radius, false⟩

/-- `getRisk(..) < 0.5`: false for a NaN. -/
def belowHalf : Option K → Bool
  | none => false
  | some r => decide (r < 1 / 2)

/-- The truncation loop of `goBack`, global_planner.cpp 523-529, from index `i`: the first index above 5 with a risk below one half,
below `size - 1`. -/
def backIndex (risk : Cell → Option K) (path : List Cell) : ℕ → ℕ → Option ℕ
  | 0, _ => none
  | n + 1, i =>
    if i < path.length - 1 then
      if 5 < i ∧ belowHalf (risk (path.getD i default)) = true then some i else backIndex risk path n (i + 1)
    else none

/-- `goBack`, global_planner.cpp 516-532. `none`: undefined (`path_back_` is empty: `size() - 1` is a huge number). -/
def goBack (risk : Cell → Option K) (st : GpSt K) : Option (GpSt K) :=
  if st.back = [] then none
  else
    let full := st.back.reverse
    let r : List Cell × List Cell := match backIndex risk full full.length 1 with
      | some i => (full.take (i + 1), st.back.take (st.back.length - i - 2))
      | none => (full, st.back)
    some { st with goingBack := true, path := r.1, back := r.2, goal := ⟨r.1.getLastD default, 1, false⟩ }

/-! ## The risk cache -/

/-- What the risk depends on and `risk_cache_`. -/
structure CacheSt (K : Type*) where
  world : RiskWorld K
  cache : Cell → Option K

/-- What can happen to it. -/
inductive CacheEvent (K : Type*)
  /-- `getRisk(Cell)`, global_planner.cpp 181-194 -/
  | query (c : Cell)
  /-- `updateFullOctomap`, global_planner.cpp 69-76; `none`: the message is not an `OcTree` -/
  | map (t : Option (Cell → Option K)) (resolution : K)
  /-- `depthCameraCallback`, global_planner_node.cpp 292-299: `occupied_.insert` -/
  | obstacle (c : Cell)
  /-- `dynamicReconfigureCallback`, global_planner_node.cpp 165-166 -/
  | reconfigure (flow explore : K)

/-- `getRisk(Cell)`, global_planner.cpp 181-194. `none`: undefined. -/
def cachedRisk (sc : K) (st : CacheSt K) (c : Cell) : Option (K × CacheSt K) :=
  match st.cache c with
  | some r => some (r, st)
  | none => (cellRisk sc st.world c).map fun r => (r, { st with cache := fun d => if d = c then some r else st.cache d })

/-- One event. `none`: undefined (null pointer, or see `cellRisk`). -/
def cacheStep (sc : K) (st : CacheSt K) : CacheEvent K → Option (CacheSt K)
  | .query c => (cachedRisk sc st c).map Prod.snd
  | .map none _ => none
  | .map (some t) res => some { world := { st.world with tree := some t, resolution := res }, cache := fun _ => none }
  | .obstacle c => some { st with world := { st.world with occupied := fun d => d == c || st.world.occupied d } }
  | .reconfigure flow explore => some { st with world := { st.world with flow := flow, explore := explore } }

/-! ## The rate of map updates -/

/-- `octomapFullCallback`, global_planner_node.cpp 264-277: `t1` and `t2` are the two readings of the clock; the result is
`last_wp_time_` and whether the map was taken. -/
def mapCallback (last t1 t2 : K) : K × Bool := if t1 - last < 1 / 5 then (last, false) else (t2, true)

/-- The times (of the first reading) of the maps taken. -/
def mapsTaken (last : K) : List (K × K) → List (K × K)
  | [] => []
  | (t1, t2) :: rest => if (mapCallback last t1 t2).2 = true then (t1, t2) :: mapsTaken (mapCallback last t1 t2).1 rest else mapsTaken last rest

end

end Global
end Avoidance
