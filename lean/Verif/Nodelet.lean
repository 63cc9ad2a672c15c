import Verif.AvoidanceNode
import Verif.WpGen

/-!
# The local planner nodelet (local_planner/src/nodes/local_planner_nodelet.cpp)

Model only: the hand-over of point clouds from the camera threads to the planning thread, the command
loop, and the goal callbacks.
-/

namespace Avoidance

/-! ## Point clouds -/

/-- `cameraData`, local_planner_nodelet.h:54-73.  A point cloud is represented by the number of its
arrival at the node (`pointCloudCallback` calls are numbered); `none` is an empty cloud. -/
structure Camera where
  received : Bool
  untransformed : ℕ
  stamp : ℚ
  transformed : Bool
  transformed_cloud : Option ℕ

/-- Program counter of `threadFunction`, 455-488: inside `numTransformedClouds` (camera `i` next, `c`
counted so far), waiting for the condition variable, inside `updatePlannerInfo` (camera `i` next),
before `runPlanner`, or ended. -/
inductive WorkerPc where
  | count (i c : ℕ)
  | wait
  | swap (i : ℕ)
  | run
  | done
deriving DecidableEq

/-- The node.  Cameras are numbered `0 .. n-1`; `log` holds, for each arrival, its camera; `frames`
holds the point clouds the planner was run with, oldest first. -/
structure FeedState where
  cams : ℕ → Camera
  pc : WorkerPc
  frame : ℕ → Option ℕ
  log : List ℕ
  frames : List (ℕ → Option ℕ)

/-- After `initializeCameraSubscribers`, 133-150. -/
def feedInit : FeedState where
  cams := fun _ => ⟨false, 0, 0, false, none⟩
  pc := .count 0 0
  frame := fun _ => none
  log := []
  frames := []

/-- `pointCloudCallback`, 406-433 (the camera mutex is held throughout, so it is one step). -/
def cloudArrives (s : FeedState) (i : ℕ) (stamp : ℚ) : FeedState :=
  let c := s.cams i
  let s' := { s with log := s.log ++ [i] }
  if c.received = true ∧ stamp - c.stamp < 3 / 10 then s'
  else
    let c' := { c with received := true, untransformed := s.log.length, stamp := stamp }
    { s' with cams := Function.update s.cams i c' }

/-- The part of `pointCloudTransformThread` under the camera mutex when both transforms are available,
500-526. -/
def cloudTransformed (s : FeedState) (i : ℕ) : FeedState :=
  let c' := { s.cams i with transformed := true, received := false,
                            transformed_cloud := some (s.cams i).untransformed }
  { s with cams := Function.update s.cams i c' }

/-- One step of the worker, 455-488: each access to a camera holds that camera's mutex, and the worker
can be interrupted in between. -/
def workerStep (n : ℕ) (s : FeedState) : FeedState :=
  match s.pc with
  | .count i c =>
    if i < n then { s with pc := .count (i + 1) (if (s.cams i).transformed then c + 1 else c) }
    else if n = 0 ∨ n ≠ c then { s with pc := .wait } else { s with pc := .swap 0 }
  | .wait => { s with pc := .count 0 0 }
  | .swap i =>
    if i < n then
      { s with frame := Function.update s.frame i (s.cams i).transformed_cloud
               cams := Function.update s.cams i { s.cams i with transformed_cloud := none, transformed := false }
               pc := .swap (i + 1) }
    else { s with pc := .run }
  | .run => { s with frames := s.frames ++ [s.frame], pc := .count 0 0 }
  | .done => s

/-- All interleavings of the threads.  `should_exit_` can end the worker in its waiting loop or between
cycles. -/
inductive FeedStep (n : ℕ) : FeedState → FeedState → Prop
  | arrive (s : FeedState) (i : ℕ) (stamp : ℚ) : i < n → FeedStep n s (cloudArrives s i stamp)
  | transform (s : FeedState) (i : ℕ) : i < n → (s.cams i).received = true → FeedStep n s (cloudTransformed s i)
  | worker (s : FeedState) : FeedStep n s (workerStep n s)
  | exit (s : FeedState) : (s.pc = .wait ∨ s.pc = .count 0 0) → FeedStep n s { s with pc := .done }

/-- Reachable states with `n` cameras. -/
inductive FeedReach (n : ℕ) : FeedState → Prop
  | init : FeedReach n feedInit
  | step {s s' : FeedState} : FeedReach n s → FeedStep n s s' → FeedReach n s'

/-! ## Command loop -/

/-- What the command loop reads and writes besides the waypoint generator. -/
structure CmdState where
  status : MavState
  gen : PlannerState × WgState
  /-- setpoints sent to the autopilot, oldest first: (position, yaw, linear velocity) -/
  sent : List (V3 (Option ℝ) × ℝ × V3 (Option ℝ))

/-- One `cmdLoopCallback`, 233-277 and `calculateWaypoints`, 283-317.
`waited` is the time spent waiting for a position, `age = now - last_wp_time_`,
`up = now - start_time_`; the vehicle data are those at the end of the wait; `i.stay` is replaced by
the hover flag (line 286). -/
noncomputable def cmdLoop (s : CmdState) (waited age up now : ℝ) (i : WgIn) : CmdState :=
  let status := if waited > 15 then .FLIGHT_TERMINATION else s.status
  let w := checkFailsafe age up ⟨status, false⟩
  if w.status = .ACTIVE then
    let g := wgCycle s.gen { i with stay := w.hover } now
    { status := w.status, gen := g, sent := s.sent ++ [(g.2.out_position, g.2.setpoint_yaw, g.2.out_linear_velocity)] }
  else { s with status := w.status }

/-- A run of the command loop; between two rounds the worker may hand over planner results and
parameters (`f`). -/
structure CmdRound where
  f : WgState → WgState
  waited : ℝ
  age : ℝ
  up : ℝ
  now : ℝ
  input : WgIn

/-- Any number of rounds. -/
noncomputable def cmdRun (s : CmdState) : List CmdRound → CmdState
  | [] => s
  | r :: rs => cmdRun (cmdLoop { s with gen := (s.gen.1, r.f s.gen.2) } r.waited r.age r.up r.now r.input) rs

/-- `stateCallback`, 211-231. -/
def navStateOf (mode : String) : NavState :=
  if mode = "AUTO.MISSION" then .mission
  else if mode = "AUTO.TAKEOFF" then .auto_takeoff
  else if mode = "AUTO.LAND" then .auto_land
  else if mode = "AUTO.RTL" then .auto_rtl
  else if mode = "AUTO.RTGS" then .auto_rtgs
  else if mode = "AUTO.LOITER" then .auto_loiter
  else if mode = "OFFBOARD" then .offboard
  else .none

/-! ## Goals -/

section goals
variable {K : Type*} [Field K] [LinearOrder K]

/-- Goal handling members; `planner_goal` and `planner_prev` are the goals last given to the planner
(`setGoal`, `setPreviousGoal`).  Entries that may be NaN are `Option`s. -/
structure GoalState (K : Type*) where
  goal : V3 (Option K)
  prev_goal : V3 (Option K)
  new_goal : Bool
  desired_velocity : V3 (Option K)
  is_land : Bool
  is_takeoff : Bool
  mission_item : V3 K
  accept_topic : Bool
  planner_goal : V3 (Option K)
  planner_prev : V3 (Option K)

/-- A `mavros_msgs/Trajectory` message: the two points used, their validity and commands. -/
structure TrajectoryMsg (K : Type*) where
  valid0 : Bool
  valid1 : Bool
  position1 : V3 K
  velocity1 : V3 (Option K)
  command0 : ℕ
  position2 : V3 K
  command1 : ℕ

/-- Finite vector as one that may be NaN. -/
def V3.some' {K : Type*} (v : V3 K) : V3 (Option K) := ⟨some v.x, some v.y, some v.z⟩

/-- `clickedGoalCallback`, 322-329: the altitude is the planner's. -/
def clickedGoal (s : GoalState K) (p : V3 K) : GoalState K :=
  { s with new_goal := true, prev_goal := s.goal, goal := ⟨some p.x, some p.y, s.planner_goal.z⟩ }

/-- `updateGoalCallback`, 331-337, with the positions of the markers. -/
def updateGoal (s : GoalState K) (markers : List (V3 K)) : GoalState K :=
  match s.accept_topic, markers with
  | true, m :: _ => { s with prev_goal := s.goal, goal := m.some', new_goal := true }
  | _, _ => s

/-- `update`, 340-343: the second point is not the stored mission item (the norm is compared squared),
or there is no goal yet. -/
def fcuUpdate (s : GoalState K) (m : TrajectoryMsg K) : Bool :=
  (m.position2.x - s.mission_item.x) ^ 2 + (m.position2.y - s.mission_item.y) ^ 2 +
    (m.position2.z - s.mission_item.z) ^ 2 > 1 / 10000 ∨ s.goal.x = none ∨ s.goal.y = none

/-- Lines 344-351 (`MAV_CMD_NAV_LAND` = 21, `MAV_CMD_NAV_TAKEOFF` = 22). -/
def fcuFirst (s : GoalState K) (m : TrajectoryMsg K) : GoalState K :=
  if m.valid0 = true ∧ fcuUpdate s m = true then
    { s with new_goal := true, prev_goal := s.goal, goal := m.position1.some',
             desired_velocity := m.velocity1, is_land := decide (m.command0 = 21),
             is_takeoff := decide (m.command0 = 22) }
  else s

/-- Lines 352-360 (`UINT16_MAX` = 65535). -/
def fcuSecond (s : GoalState K) (m : TrajectoryMsg K) : GoalState K :=
  if m.valid1 then
    if m.command1 = 65535 then
      { s with mission_item := m.position2, goal := m.position2.some', desired_velocity := ⟨none, none, none⟩ }
    else { s with mission_item := m.position2 }
  else s

/-- `fcuInputGoalCallback`, 339-361. -/
def fcuInputGoal (s : GoalState K) (m : TrajectoryMsg K) : GoalState K := fcuSecond (fcuFirst s m) m

/-- The goal part of `updatePlannerInfo`, 183-188. -/
def handOverGoal (s : GoalState K) : GoalState K :=
  if s.new_goal then { s with planner_goal := s.goal, planner_prev := s.prev_goal, new_goal := false } else s

/-- Everything that happens to the goals. -/
inductive GoalEvent (K : Type*) where
  | clicked (p : V3 K)
  | topic (markers : List (V3 K))
  | fcu (m : TrajectoryMsg K)
  | handOver

/-- The effect of an event. -/
def goalStep (s : GoalState K) : GoalEvent K → GoalState K
  | .clicked p => clickedGoal s p
  | .topic ms => updateGoal s ms
  | .fcu m => fcuInputGoal s m
  | .handOver => handOverGoal s

end goals
end Avoidance
