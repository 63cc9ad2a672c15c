import Verif.GpBezier
import Verif.GpState

/-!
# Model: following the planned path (global_planner/src/nodes/global_planner_node.cpp 205-239, 307-333, 369-433;
global_planner/src/library/global_planner.cpp 7-14, 334-366)

A pose is a position and a yaw (what `tf::getYaw` gives for the orientation; `tf::createQuaternionMsgFromYaw` and `tf::getYaw` are
taken to be inverse to each other on (-π, π]).
-/

namespace Avoidance
namespace Global

noncomputable section

/-- `nextYaw`, global_planner.cpp 7-14. -/
def nextYaw (u v : Cell) (lastYaw : ℝ) : ℝ := if v.x - u.x = 0 ∧ v.y - u.y = 0 then lastYaw else (v.sub u).angle

/-- `getPathMsg`, global_planner.cpp 345-366, with `createPoseMsg` 334-341: the poses. -/
def pathPoses (sc : ℝ) : ℝ → List Cell → List (GPose ℝ ℝ)
  | _, [] => []
  | yaw, [c] => [⟨c.toPoint sc, yaw⟩]
  | yaw, c :: d :: rest => ⟨c.toPoint sc, nextYaw c d yaw⟩ :: pathPoses sc (nextYaw c d yaw) (d :: rest)

/-- What following uses: global_planner_node.h 84-90, 100 (`last_goal_`, `current_goal_`, `path_`, `last_pos_`, `speed_`). -/
structure FollowSt where
  lastGoal : GPose ℝ ℝ
  goal : GPose ℝ ℝ
  path : List (GPose ℝ ℝ)
  here : GPose ℝ ℝ
  speed : ℝ

/-- `setCurrentPath`, global_planner_node.cpp 307-320. -/
def setCurrentPath (st : FollowSt) (poses : List (GPose ℝ ℝ)) : FollowSt :=
  match poses with
  | a :: b :: rest => { st with lastGoal := a, goal := b, path := rest }
  | _ => { st with path := [] }

/-- `yaw_diff` of global_planner_node.cpp 225-229. -/
def yawDiff (yaw1 yaw2 : ℝ) : ℝ := |yaw2 - yaw1| - (⌊|yaw2 - yaw1| / (2 * Real.pi)⌋ : ℝ) * (2 * Real.pi)

/-- The test of global_planner_node.cpp 230-231. -/
def facing (yaw1 yaw2 : ℝ) : Prop := yawDiff yaw1 yaw2 < Real.pi / 1 ∨ 2 * Real.pi - Real.pi / 1 < yawDiff yaw1 yaw2

/-- `isCloseToGoal`, global_planner_node.cpp 433. -/
def closeToGoal (st : FollowSt) : Prop := dist3 st.goal.position st.here.position < st.speed

open Classical in
/-- `positionCallback`, global_planner_node.cpp 205-240, as far as it concerns following the path. -/
def followPosition (st : FollowSt) (p : GPose ℝ ℝ) : FollowSt :=
  let st := { st with here := p }
  match st.path with
  | [] => st
  | next :: rest => if closeToGoal st ∧ facing st.goal.orientation p.orientation then { st with lastGoal := st.goal, goal := next, path := rest } else st

/-- The parameters of the speed: global_planner.h 81-83, 91-92. -/
structure SpeedCfg where
  threshold : ℝ
  defaultSpeed : ℝ
  maxSpeed : ℝ
  /-- `use_speedup_heuristics_` -/
  speedupHeuristics : Bool
  /-- `use_risk_based_speedup_` -/
  riskBasedSpeedup : Bool

/-- `speed_`, global_planner_node.cpp 393-407, from the risk of the current cell; `none`: NaN (the root of a negative number). -/
def commandedSpeed (C : SpeedCfg) (risk : ℝ) : Option ℝ :=
  if C.speedupHeuristics = true then
    if risk < 0 then none
    else if C.threshold ≤ Real.sqrt risk then some C.defaultSpeed
    else some (C.defaultSpeed + (C.maxSpeed - C.defaultSpeed) * (1 - Real.sqrt risk))
  else some C.defaultSpeed

open Classical in
/-- The position sent: global_planner_node.cpp 392, 410-417. `none`: NaN (`normalize` divides by a length of zero). -/
def setpoint (goal here : V3 ℝ) (speed : ℝ) : Option (V3 ℝ) :=
  let vec := goal.minus here
  if vec.norm = 0 then none
  else some (here.plus (V3.smul (if vec.norm < 1 then vec.norm else speed) (V3.smul (1 / vec.norm) vec)))

/-- `publishSetpoint`, global_planner_node.cpp 390-431: the new state and the pose published; `none`: NaN. `cmdLoopCallback`
(322-333) calls it every 0.1 s, whatever `checkFailsafe` says (the result, `hover_`, is not used). -/
def publishSetpoint (C : SpeedCfg) (st : FollowSt) (risk : ℝ) : Option (FollowSt × GPose ℝ ℝ) :=
  match commandedSpeed C risk with
  | none => none
  | some v => (setpoint st.goal.position st.here.position v).map fun p => ({ st with speed := v }, ⟨p, st.goal.orientation⟩)

/-- `publishPath`, global_planner_node.cpp 369-382, as far as it concerns following: first the path, then the simplified path. -/
def publishPath (sc yaw : ℝ) (simplify : List Cell → List Cell) (st : FollowSt) (path : List Cell) : FollowSt :=
  setCurrentPath (setCurrentPath st (pathPoses sc yaw path)) (pathPoses sc yaw (simplify path))

end

end Global
end Avoidance
