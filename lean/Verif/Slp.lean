import Mathlib.Data.List.Sort
import Mathlib.Data.Int.DivMod
import Verif.LandingGrid
import Verif.Usm

/-!
# The landing waypoint generator: `safe_landing_planner/src/nodes/waypoint_generator.cpp`,
# `.../include/safe_landing_planner/waypoint_generator.hpp` and the callbacks of
# `.../src/nodes/waypoint_generator_node.cpp`

Model only.  A float that can be NaN is an `Option K`; comparisons with NaN are false.  `none` as the result of a
function is undefined behaviour (access outside a matrix or a vector).  The node has no thread of its own for the
callbacks: they all run inside `cmdLoopCallback` (waypoint_generator_node.cpp:38-50, 266-275), so a history is a
sequence of callbacks and iterations.
-/

namespace Avoidance
namespace Landing

set_option linter.unusedSectionVars false

variable {K : Type*} [Field K] [LinearOrder K] [IsStrictOrderedRing K] [FloorRing K]

/-- `enum class SLPState`, waypoint_generator.hpp:19. -/
inductive SlpState where
  | GOTO | LOITER | LAND | ALTITUDE_CHANGE | EVALUATE_GRID | GOTO_LAND
deriving DecidableEq, Repr

/-- The arguments of `publishTrajectorySetpoints_`, waypoint_generator.hpp:81-82. -/
structure Setpoint (K : Type*) where
  pos : V3 (Option K)
  vel : V3 (Option K)
  yaw : Option K
  yaw_speed : Option K
deriving DecidableEq

/-- NaN in every component (`nan_setpoint`, waypoint_generator.cpp:8). -/
def nan3 : V3 (Option K) := ⟨none, none, none⟩

/-- The members of `WaypointGenerator`, waypoint_generator.hpp:35-79; `sent` records the published setpoints, newest
first. -/
structure Slp (K : Type*) where
  state : SlpState
  prev_state : SlpState
  -- configuration
  beta : K
  can_land_thr : K
  loiter_height : K
  vertical_range_error : K
  spiral_width : K
  smoothing_land_cell : ℕ
  -- state
  trigger_reset : Bool
  is_land_waypoint : Bool
  decision_taken : Bool
  can_land : Bool
  update_smoothing_size : Bool
  exploration_is_active : Bool
  state_changed : Bool
  start_seq : ℤ
  grid_seq : ℤ
  n_explored_pattern : ℤ
  factor_exploration : K
  landing_radius : K
  altitude_percentile : K
  yaw_setpoint : Option K
  yaw_speed_setpoint : Option K
  loiter_yaw : Option K
  yaw : Option K
  position : V3 (Option K)
  goal : V3 (Option K)
  velocity_setpoint : V3 (Option K)
  loiter_position : V3 (Option K)
  exploration_anchor : V3 (Option K)
  grid : Grid K
  -- `can_land_hysteresis_matrix_` and `can_land_hysteresis_result_` are `hyst_n × hyst_n`
  hyst_n : ℕ
  hyst : ℤ → ℤ → K
  result : ℤ → ℤ → ℤ
  -- `mask_` is `mask_n × mask_n`
  mask_n : ℕ
  mask : ℤ → ℤ → ℤ
  sent : List (Setpoint K)

/-- `exploration_pattern`, waypoint_generator.hpp:15-17. -/
def explorationPattern : List (ℤ × ℤ) := [(1, 0), (1, 1), (0, 1), (-1, 1), (-1, 0), (-1, -1), (0, -1), (1, -1)]

/-- `LAND_SPEED`, waypoint_generator.hpp:22. -/
def landSpeed : K := 7 / 10

/-- `initializeMask`, waypoint_generator.cpp:44-50: `hypot(i - s, j - s) < s + 0.5`, squared and doubled. -/
def maskOf (s : ℕ) (i j : ℤ) : ℤ := if 4 * ((i - s) ^ 2 + (j - s) ^ 2) < (2 * (s : ℤ) + 1) ^ 2 then 1 else 0

/-- `updateSLPState`, first block, waypoint_generator.cpp:63-68. -/
def updateMask (w : Slp K) : Slp K :=
  if w.update_smoothing_size = true ∨ w.mask_n ≠ w.smoothing_land_cell * 2 + 1 then
    { w with mask_n := w.smoothing_land_cell * 2 + 1, mask := maskOf w.smoothing_land_cell, update_smoothing_size := false }
  else w

/-- `updateSLPState`, second block, waypoint_generator.cpp:70-75. -/
def updateHysteresisSize (w : Slp K) : Slp K :=
  if w.grid.n ≠ w.hyst_n then
    { w with hyst_n := w.grid.n, hyst := fun _ _ => 0, result := fun _ _ => 0 }
  else w

/-- `updateSLPState`, third block, waypoint_generator.cpp:77-86. -/
def updateNotLanding (w : Slp K) : Slp K :=
  if w.is_land_waypoint = true then w
  else
    { w with decision_taken := false, can_land := true, hyst := fun _ _ => 0, exploration_is_active := false,
             n_explored_pattern := -1, factor_exploration := 1, landing_radius := 2 }

/-- `updateSLPState`, waypoint_generator.cpp:62-89. -/
def updateSlpState (w : Slp K) : Slp K := updateNotLanding (updateHysteresisSize (updateMask w))

/-- The rows of the `USM_TABLE`, waypoint_generator.cpp:95-104. -/
def slpTable : List (SlpState × Transition × SlpState) :=
  [(.GOTO, .NEXT1, .ALTITUDE_CHANGE), (.ALTITUDE_CHANGE, .NEXT1, .LOITER), (.LOITER, .NEXT1, .EVALUATE_GRID),
   (.EVALUATE_GRID, .NEXT1, .GOTO), (.EVALUATE_GRID, .NEXT2, .GOTO_LAND), (.GOTO_LAND, .NEXT1, .LAND)]

/-- `chooseNextState`, waypoint_generator.cpp:91-106. -/
def slpChoose (w : Slp K) (t : Transition) : Slp K :=
  { w with prev_state := w.state, state_changed := true, state := usmTable .GOTO slpTable w.state t }

/-- `publishTrajectorySetpoints_(...)`. -/
def publish (w : Slp K) (p v : V3 (Option K)) (yaw ys : Option K) : Slp K := { w with sent := ⟨p, v, yaw, ys⟩ :: w.sent }

/-- `withinLandingRadius`, waypoint_generator.cpp:318-320, squared (the radius is positive). -/
def withinLandingRadius (w : Slp K) : Prop :=
  match w.goal.x, w.goal.y, w.position.x, w.position.y with
  | some gx, some gy, some px, some py => (gx - px) ^ 2 + (gy - py) ^ 2 < w.landing_radius ^ 2
  | _, _, _, _ => False

instance (w : Slp K) : Decidable (withinLandingRadius w) := by
  unfold withinLandingRadius
  split <;> infer_instance

/-- `|position.z - altitude|`, or NaN. -/
def heightAbove (w : Slp K) : Option K := w.position.z.map fun z => |z - w.altitude_percentile|

/-- `inVerticalRange`, waypoint_generator.cpp:322-324. -/
def inVerticalRange (w : Slp K) : Prop :=
  match heightAbove w with
  | some h => |h - w.loiter_height| < w.vertical_range_error
  | none => False

instance (w : Slp K) : Decidable (inVerticalRange w) := by
  unfold inVerticalRange
  split <;> infer_instance

/-- `std::round` of a non-negative number. -/
def roundHalfUp (x : K) : ℤ := ⌊x + 1 / 2⌋

/-- The means read by the loops waypoint_generator.cpp:329-337. -/
def patchMeans (w : Slp K) : Option (List K) :=
  let s := w.smoothing_land_cell
  let c : ℤ := ((w.grid.n / 2 : ℕ) : ℤ)
  (indices (2 * s + 1) (2 * s + 1)).mapM fun ij =>
    let i := c - s + (ij.1 : ℤ)
    let j := c - s + (ij.2 : ℤ)
    if InGrid w.grid.n i j then some (w.grid.mean i j) else none

/-- `landingAreaHeightPercentile`, waypoint_generator.cpp:326-341. -/
def heightPercentile (w : Slp K) (percentile : K) : Option K :=
  (patchMeans w).bind fun l =>
    let sorted := l.insertionSort (· ≤ ·)
    let index := roundHalfUp (percentile / 100 * l.length)
    if 0 ≤ index then sorted[index.toNat]? else none

/-- `evaluatePatch`, waypoint_generator.cpp:312-316: the block must lie inside the matrix. -/
def evaluatePatch (w : Slp K) (corner : ℤ × ℤ) : Option Bool :=
  if 0 ≤ corner.1 ∧ 0 ≤ corner.2 ∧ corner.1 + w.mask_n ≤ w.hyst_n ∧ corner.2 + w.mask_n ≤ w.hyst_n then
    some (decide (((indices w.mask_n w.mask_n).map fun ij =>
        w.result (corner.1 + (ij.1 : ℤ)) (corner.2 + (ij.2 : ℤ)) * w.mask ij.1 ij.2).sum =
      ((indices w.mask_n w.mask_n).map fun ij => w.mask ij.1 ij.2).sum))
  else none

/-- The exploration step of `runGoTo`: the anchor, waypoint_generator.cpp:161-166. -/
def exploreStart (w : Slp K) : Slp K :=
  if w.exploration_is_active = true then w
  else { w with exploration_anchor := w.loiter_position, exploration_is_active := true }

/-- The next direction, and the next turn after the last one, waypoint_generator.cpp:167-172. -/
def exploreAdvance (w : Slp K) : Slp K :=
  if w.n_explored_pattern + 1 = (explorationPattern.length : ℤ) then
    { w with n_explored_pattern := 0, factor_exploration := w.factor_exploration + 1 }
  else { w with n_explored_pattern := w.n_explored_pattern + 1 }

/-- The new goal, waypoint_generator.cpp:173-180.  `exploration_pattern[n]` must exist. -/
def exploreGoal (w : Slp K) : Option (Slp K) :=
  let offset := w.spiral_width * w.factor_exploration * 2 * (w.smoothing_land_cell : K) * w.grid.cell_size
  if 0 ≤ w.n_explored_pattern then
    (explorationPattern[w.n_explored_pattern.toNat]?).map fun d =>
      { w with goal := ⟨w.exploration_anchor.x.map (· + offset * (d.1 : K)), w.exploration_anchor.y.map (· + offset * (d.2 : K)), w.exploration_anchor.z⟩,
               velocity_setpoint := nan3, decision_taken := false }
  else none

/-- The exploration step of `runGoTo`, waypoint_generator.cpp:161-180. -/
def exploreNext (w : Slp K) : Option (Slp K) := exploreGoal (exploreAdvance (exploreStart w))

/-- `runGoTo`, waypoint_generator.cpp:144-150: the part before the height is computed.  `nextYaw` is a parameter. -/
def goToPublish (nextYaw : V3 (Option K) → V3 (Option K) → Option K) (w : Slp K) : Slp K :=
  if w.exploration_is_active = true then
    { w with landing_radius := 1 / 2, yaw_setpoint := nextYaw w.position w.goal,
             sent := ⟨w.goal, w.velocity_setpoint, nextYaw w.position w.goal, w.yaw_speed_setpoint⟩ :: w.sent }
  else publish w w.goal w.velocity_setpoint w.yaw_setpoint w.yaw_speed_setpoint

/-- `runGoTo`, waypoint_generator.cpp:157-183: the decision. -/
def goToDecide (w : Slp K) : Option (Transition × Slp K) :=
  if withinLandingRadius w ∧ w.is_land_waypoint = true ∧ w.decision_taken = false then some (.NEXT1, w)
  else if withinLandingRadius w ∧ w.is_land_waypoint = true ∧ w.decision_taken = true ∧ w.can_land = false then
    (exploreNext w).map fun w' => (.REPEAT, w')
  else some (.REPEAT, w)

/-- `runGoTo`, waypoint_generator.cpp:143-184. -/
def runGoTo (nextYaw : V3 (Option K) → V3 (Option K) → Option K) (w : Slp K) : Option (Transition × Slp K) :=
  (heightPercentile (goToPublish nextYaw w) 80).bind fun h =>
    goToDecide { goToPublish nextYaw w with altitude_percentile := h, hyst := fun _ _ => 0 }

/-- `runGoToLand`, waypoint_generator.cpp:186-197. -/
def runGoToLand (nextYaw : V3 (Option K) → V3 (Option K) → Option K) (w : Slp K) : Transition × Slp K :=
  let w := publish w w.goal w.velocity_setpoint (nextYaw w.position w.goal) w.yaw_speed_setpoint
  if withinLandingRadius w then (.NEXT1, w) else (.REPEAT, w)

/-- `runAltitudeChange`, waypoint_generator.cpp:200-203. -/
def altitudePrepare (w : Slp K) : Slp K :=
  { w with loiter_yaw := if w.state_changed = true then w.yaw else w.loiter_yaw, goal := { w.goal with z := none } }

/-- The direction, waypoint_generator.cpp:205; with a NaN height it is `-1`. -/
def altitudeDirection (w : Slp K) : K :=
  match heightAbove w with
  | some a => if a - w.loiter_height < 0 then 1 else -1
  | none => -1

/-- `runAltitudeChange`, waypoint_generator.cpp:205-218. -/
def altitudeDecide (w : Slp K) : Transition × Slp K :=
  let v : V3 (Option K) := { w.velocity_setpoint with z := some (altitudeDirection w * landSpeed) }
  let w' := { w with velocity_setpoint := v, sent := ⟨w.goal, v, w.loiter_yaw, w.yaw_speed_setpoint⟩ :: w.sent }
  if inVerticalRange w then (.NEXT1, { w' with start_seq := w.grid_seq }) else (.REPEAT, w')

/-- `runAltitudeChange`, waypoint_generator.cpp:199-219. -/
def runAltitudeChange (w : Slp K) : Option (Transition × Slp K) :=
  (heightPercentile (altitudePrepare w) 80).map fun h => altitudeDecide { altitudePrepare w with altitude_percentile := h }

/-- The two `select`s and the cast of waypoint_generator.cpp:239-243. -/
def hystSelect (thr v : K) : K :=
  let b := if v ≤ thr then 0 else v
  if b > thr then 1 else b

/-- `runLoiter`, waypoint_generator.cpp:222-229. -/
def loiterPrepare (w : Slp K) : Slp K :=
  if w.state_changed = true then
    { w with loiter_position := w.position, goal := w.position, sent := ⟨w.position, nan3, w.loiter_yaw, none⟩ :: w.sent }
  else publish w w.loiter_position nan3 w.loiter_yaw none

/-- `runLoiter`, waypoint_generator.cpp:231-249 (the cast to `int` truncates; the values are 0 or 1). -/
def loiterDecide (w : Slp K) : Transition × Slp K :=
  if |w.grid_seq - w.start_seq| ≤ 20 then
    (.REPEAT, { w with hyst := fun i j => w.beta * w.hyst i j + (1 - w.beta) * (w.grid.land i j : K) })
  else
    (.NEXT1, { w with hyst := fun i j => hystSelect w.can_land_thr (w.hyst i j),
                      result := fun i j => ⌊hystSelect w.can_land_thr (w.hyst i j)⌋ })

/-- `runLoiter`, waypoint_generator.cpp:221-250. -/
def runLoiter (w : Slp K) : Transition × Slp K := loiterDecide (loiterPrepare w)

/-- `runLand`, waypoint_generator.cpp:253-257. -/
def landPrepare (w : Slp K) : Slp K :=
  if w.state_changed = true then
    { w with loiter_position := ⟨w.position.x, w.position.y, none⟩, loiter_yaw := w.yaw }
  else { w with loiter_position := { w.loiter_position with z := none } }

/-- `runLand`, waypoint_generator.cpp:252-264. -/
def runLand (w : Slp K) : Transition × Slp K :=
  (.REPEAT, publish (landPrepare w) (landPrepare w).loiter_position ⟨none, none, some (-landSpeed)⟩ (landPrepare w).loiter_yaw none)

/-- `stride_`, waypoint_generator.hpp:63 (never changed). -/
def stride : ℤ := 1

/-- The corners inspected by the nested loops waypoint_generator.cpp:285-290, in order: the central patch is tested
before. -/
def searchOffsets (n s : ℕ) : List (ℤ × ℤ) :=
  let center : ℤ := ((n / 2 : ℕ) : ℤ)
  let n_iterations : ℤ := ((1 : ℤ) + ((n : ℤ) - (2 * s + 1)).tdiv stride).tdiv 2
  (List.range n_iterations.toNat).flatMap fun (i : ℕ) =>
    if i = 0 then [] else
      explorationPattern.map fun d => (center + d.1 * i * stride - s, center + d.2 * i * stride - s)

/-- The loop itself: the first corner whose patch is landable. -/
def findPatch (w : Slp K) : List (ℤ × ℤ) → Option (Option (ℤ × ℤ))
  | [] => some none
  | c :: cs => (evaluatePatch w c).bind fun b => if b = true then some (some c) else findPatch w cs

/-- `position + (offset + s - n/2) * cell`, waypoint_generator.cpp:297-300. -/
def patchGoal (w : Slp K) (c : ℤ × ℤ) : V3 (Option K) :=
  let off (a : ℤ) : K := ((a + w.smoothing_land_cell - ((w.grid.n / 2 : ℕ) : ℤ) : ℤ) : K) * w.grid.cell_size
  ⟨w.position.x.map (· + off c.1), w.position.y.map (· + off c.2), w.position.z⟩

/-- `runEvaluateGrid`, waypoint_generator.cpp:273-309. -/
def evaluateDecide (w : Slp K) : Option (Transition × Slp K) :=
  (evaluatePatch w (((w.grid.n / 2 : ℕ) : ℤ) - w.smoothing_land_cell, ((w.grid.n / 2 : ℕ) : ℤ) - w.smoothing_land_cell)).bind fun b =>
    if b = true then some (.NEXT2, { w with can_land := true, decision_taken := true })
    else
      (findPatch w (searchOffsets w.grid.n w.smoothing_land_cell)).map fun r => match r with
        | some c => (.NEXT2, { w with can_land := true, decision_taken := true, goal := patchGoal w c,
                                      velocity_setpoint := { w.velocity_setpoint with z := none } })
        | none => (.NEXT1, { w with can_land := false, decision_taken := true })

/-- `runEvaluateGrid`, waypoint_generator.cpp:266-271. -/
def evaluatePrepare (w : Slp K) : Slp K :=
  { w with landing_radius := 1 / 2, sent := ⟨w.loiter_position, nan3, w.loiter_yaw, none⟩ :: w.sent }

/-- `runEvaluateGrid`, waypoint_generator.cpp:266-310. -/
def runEvaluateGrid (w : Slp K) : Option (Transition × Slp K) := evaluateDecide (evaluatePrepare w)

/-- `runCurrentState`, waypoint_generator.cpp:108-141. -/
def runCurrentState (nextYaw : V3 (Option K) → V3 (Option K) → Option K) (w : Slp K) : Option (Transition × Slp K) :=
  if w.trigger_reset = true then some (.ERROR, { w with trigger_reset := false })
  else
    (match w.state with
      | .GOTO => runGoTo nextYaw w
      | .ALTITUDE_CHANGE => runAltitudeChange w
      | .LOITER => some (runLoiter w)
      | .LAND => some (runLand w)
      | .EVALUATE_GRID => runEvaluateGrid w
      | .GOTO_LAND => some (runGoToLand nextYaw w)).map fun (r : Transition × Slp K) => (r.1, { r.2 with state_changed := false })

/-- `calculateWaypoint`, waypoint_generator.cpp:52-60, with `iterateOnce`, usm.h:66-70. -/
def calculateWaypoint (nextYaw : V3 (Option K) → V3 (Option K) → Option K) (w : Slp K) : Option (Slp K) :=
  (runCurrentState nextYaw (updateSlpState w)).map fun r => if r.1 ≠ .REPEAT then slpChoose r.2 r.1 else r.2

/-! ## The node's callbacks -/

/-- `mavros_msgs/Trajectory`, as far as it is read. -/
structure SlpTrajectory (K : Type*) where
  valid0 : Bool
  valid1 : Bool
  position1 : V3 (Option K)
  velocity1 : V3 (Option K)
  position2 : V3 (Option K)
  yaw2 : Option K
  yaw_rate2 : Option K
  command1 : ℕ

/-- The node: the generator, `goal_visualization_` (waypoint_generator_node.hpp) and `grid_received_`. -/
structure SlpNode (K : Type*) where
  gen : Slp K
  goal_visualization : V3 (Option K)
  grid_received : Bool

/-- `(a - b).norm() > 0.01`; false with a NaN. -/
def farApart (a b : V3 (Option K)) : Prop :=
  match a.x, a.y, a.z, b.x, b.y, b.z with
  | some ax, some ay, some az, some bx, some bY, some bz => (ax - bx) ^ 2 + (ay - bY) ^ 2 + (az - bz) ^ 2 > (1 / 100) ^ 2
  | _, _, _, _, _, _ => False

instance (a b : V3 (Option K)) : Decidable (farApart a b) := by
  unfold farApart
  split <;> infer_instance

/-- `trajectoryCallback`, waypoint_generator_node.cpp:76-92 (`MAV_CMD_NAV_LAND` is 21). -/
def trajectoryCallback (s : SlpNode K) (m : SlpTrajectory K) : SlpNode K :=
  let update := farApart m.position2 s.goal_visualization ∨ s.gen.goal.x = none ∨ s.gen.goal.y = none
  let s1 := if update ∧ m.valid0 = true then
      { s with gen := { s.gen with goal := m.position1, velocity_setpoint := m.velocity1,
                                   is_land_waypoint := decide (m.command1 = 21) } }
    else s
  if m.valid1 = true then
    { s1 with goal_visualization := m.position2,
              gen := { s1.gen with yaw_setpoint := m.yaw2, yaw_speed_setpoint := m.yaw_rate2 } }
  else s1

/-- The flight modes `stateCallback` tells apart. -/
inductive FlightMode where
  | AUTO_LAND | AUTO_MISSION | other
deriving DecidableEq, Repr

/-- `stateCallback`, waypoint_generator_node.cpp:94-108. -/
def stateCallback (s : SlpNode K) (mode : FlightMode) (armed : Bool) : SlpNode K :=
  let s1 := match mode with
    | .AUTO_LAND => { s with gen := { s.gen with is_land_waypoint := true } }
    | .AUTO_MISSION => s
    | .other => { s with gen := { s.gen with is_land_waypoint := false, trigger_reset := true } }
  if armed = true then s1 else { s1 with gen := { s1.gen with is_land_waypoint := false, trigger_reset := true } }

/-- `positionCallback`, waypoint_generator_node.cpp:64-74 (the yaw is computed by tf). -/
def positionCallback (s : SlpNode K) (p : V3 (Option K)) (yaw : Option K) : SlpNode K :=
  { s with gen := { s.gen with position := p, yaw := yaw } }

/-- One assignment of the loop waypoint_generator_node.cpp:117-122. -/
def gridCell (m : GridMsg K) (g : Grid K) (ij : ℕ × ℕ) : Option (Grid K) :=
  if InGrid g.n ij.1 ij.2 then
    match m.mean[m.cols * ij.1 + ij.2]?, m.land[m.cols * ij.1 + ij.2]? with
    | some a, some b => some { g with mean := write g.mean ij.1 ij.2 a, land := write g.land ij.1 ij.2 b }
    | _, _ => none
  else none

/-- `gridCallback`, waypoint_generator_node.cpp:110-129 (the position index and the filter limits are only used for
the visualisation and left out). -/
def gridCallback (s : SlpNode K) (m : GridMsg K) : Option (SlpNode K) :=
  let g := s.gen.grid
  let g := if g.grid_size ≠ m.grid_size ∨ g.cell_size ≠ m.cell_size then g.resize m.grid_size m.cell_size else g
  (loopM (gridCell m) g (indices m.rows m.cols)).map fun g' =>
    { s with gen := { s.gen with grid := g', grid_seq := m.seq }, grid_received := true }

/-- `dynamicReconfigureCallback`, waypoint_generator_node.cpp:52-62. -/
def slpReconfigure (s : SlpNode K) (beta thr loiter_height vertical_range_error spiral_width : K) (smoothing : ℕ) :
    SlpNode K :=
  { s with gen := { s.gen with beta := beta, can_land_thr := thr, loiter_height := loiter_height,
                               smoothing_land_cell := smoothing, vertical_range_error := vertical_range_error,
                               spiral_width := spiral_width,
                               update_smoothing_size := s.gen.update_smoothing_size ||
                                 decide (s.gen.mask_n ≠ smoothing * 2 + 1) } }

/-- What happens to the node.  `iterate` is the rest of `cmdLoopCallback`, waypoint_generator_node.cpp:43-46. -/
inductive SlpEvent (K : Type*) where
  | position (p : V3 (Option K)) (yaw : Option K)
  | trajectory (m : SlpTrajectory K)
  | state (mode : FlightMode) (armed : Bool)
  | grid (m : GridMsg K)
  | reconfigure (beta thr loiter_height vertical_range_error spiral_width : K) (smoothing : ℕ)
  | iterate

/-- The effect of an event. -/
def slpStep (nextYaw : V3 (Option K) → V3 (Option K) → Option K) (s : SlpNode K) : SlpEvent K → Option (SlpNode K)
  | .position p yaw => some (positionCallback s p yaw)
  | .trajectory m => some (trajectoryCallback s m)
  | .state mode armed => some (stateCallback s mode armed)
  | .grid m => gridCallback s m
  | .reconfigure a b c d e f => some (slpReconfigure s a b c d e f)
  | .iterate => (calculateWaypoint nextYaw s.gen).map fun g => { s with gen := g, grid_received := false }

/-- The initial node, waypoint_generator.hpp:35-79 (the constructor fills the mask for 6 cells). -/
def slpInit : SlpNode K :=
  { gen :=
      { state := .GOTO, prev_state := .GOTO, beta := 9 / 10, can_land_thr := 4 / 10, loiter_height := 4,
        vertical_range_error := 1, spiral_width := 2, smoothing_land_cell := 6, trigger_reset := false,
        is_land_waypoint := false, decision_taken := false, can_land := true, update_smoothing_size := false,
        exploration_is_active := false, state_changed := false, start_seq := 0, grid_seq := 0, n_explored_pattern := -1,
        factor_exploration := 1, landing_radius := 2, altitude_percentile := -1, yaw_setpoint := none,
        yaw_speed_setpoint := none, loiter_yaw := none, yaw := none, position := nan3, goal := nan3,
        velocity_setpoint := nan3, loiter_position := nan3, exploration_anchor := nan3, grid := Grid.new 10 1,
        hyst_n := 40, hyst := fun _ _ => 0, result := fun _ _ => 0, mask_n := 13, mask := maskOf 6, sent := [] }
    goal_visualization := nan3
    grid_received := false }

/-- `publishTrajectorySetpoints`, waypoint_generator_node.cpp:131-167: is the first point marked valid?  Finite means
not NaN here (no infinities are ever produced).  The second argument of the conjunction is
`isfinite(z || isfinite(vz))`: the value of `||` is `false` or `true`, hence always finite. -/
def pointValid (sp : Setpoint K) : Bool :=
  let xy_pos := sp.pos.x.isSome && sp.pos.y.isSome
  let xy_vel := sp.vel.x.isSome && sp.vel.y.isSome
  -- a NaN is "true" in `||`, as is every non-zero number
  let orVal : Bool := (match sp.pos.z with | some z => decide (z ≠ 0) | none => true) || sp.vel.z.isSome
  let finiteOfBool (_b : Bool) : Bool := true
  (xy_pos || xy_vel) && finiteOfBool orVal

/-- The block access of `landingAreaVisualization`, waypoint_generator_node.cpp:211-215 (the hard-coded 20), and the
reads of `result` in the loops 221-226: is everything inside the matrices? -/
def visualisationInRange (w : Slp K) : Prop :=
  let s := w.smoothing_land_cell
  (0 ≤ (20 : ℤ) - s ∧ (20 : ℤ) - s + w.mask_n ≤ w.hyst_n) ∧
  ((s ≤ w.grid.n / 2) ∧ w.grid.n / 2 + s < w.hyst_n)

end Landing
end Avoidance
