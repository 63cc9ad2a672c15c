import Mathlib.Algebra.Order.Field.Basic
import Mathlib.Tactic.Linarith
import Verif.LandingGrid

/-!
# The safe landing planner node (safe_landing_planner/src/nodes/safe_landing_planner_node.cpp)

Model only: the status messages of the command loop, the hand-over of point clouds from the subscriber
through the worker thread to the planner, and the start-up of the two threads.
-/

namespace Avoidance
namespace SlpNode

set_option linter.unusedSectionVars false

variable {K : Type*} [Field K] [LinearOrder K] [IsStrictOrderedRing K]

/-! ## The status messages -/

/-- The values of `status_msg_.state` the node uses (`MAV_STATE`, avoidance/include/avoidance/common.h). -/
inductive Status where
  | active
  | critical
  | termination
deriving DecidableEq, Repr

/-- `timeout_critical_`, `timeout_termination_`, safe_landing_planner.hpp:24-25 (defaults 0.5 s, 15 s; both are
runtime parameters, SafeLandingPlannerNode.cfg:19-20). -/
structure Timeouts (K : Type*) where
  critical : K
  termination : K

/-- The members of the node that decide about status messages, safe_landing_planner_node.hpp:78-82, and the
messages published so far (time, state), oldest first. -/
structure StatusState (K : Type*) where
  start_time : K
  last_algo : K
  status_sent : K
  state : Status
  published : List (K × Status)

/-- `publishSystemStatus`, 130-135.  The two clock readings inside it are taken to be the same instant. -/
def publishStatus (s : StatusState K) (t : K) : StatusState K :=
  { s with status_sent := t, published := s.published ++ [(t, s.state)] }

/-- One iteration of the waiting loop, 85-92, entered because no transformed cloud was there: `t` is the clock
reading of line 87. -/
def waitOnce (T : Timeouts K) (query : K) (s : StatusState K) (t : K) : StatusState K :=
  if t - query > T.termination then publishStatus { s with state := .termination } t else s

/-- `checkFailsafe`, 119-128. -/
def checkFailsafe (T : Timeouts K) (s : StatusState K) (since_last_algo since_start : K) : StatusState K :=
  if since_last_algo > T.termination ∧ since_start > T.termination then { s with state := .termination }
  else if since_last_algo > T.critical ∧ since_start > T.critical then { s with state := .critical }
  else s

/-- The clock readings of one run of the command loop: line 84, one per iteration of the waiting loop (line 87),
line 95, and line 112.  The publishing on line 114 takes place at the reading of line 112 (simplification). -/
structure Cycle (K : Type*) where
  query : K
  polls : List K
  now : K
  done : K

/-- `cmdLoopCallback`, 81-117, as far as the status is concerned. -/
def cycle (T : Timeouts K) (s : StatusState K) (c : Cycle K) : StatusState K :=
  let s1 := { s with state := .active }
  let s2 := c.polls.foldl (waitOnce T c.query) s1
  let s3 := checkFailsafe T s2 (c.now - s2.last_algo) (c.now - s2.start_time)
  let s4 := { s3 with last_algo := c.done }
  if c.now - s4.status_sent > 2 / 10 then publishStatus s4 c.done else s4

/-- The node after construction, 7-37: the clock reading of line 36, and the members' initial values
(safe_landing_planner_node.hpp:80-82). -/
def statusInit (start : K) : StatusState K where
  start_time := start
  last_algo := 0
  status_sent := 0
  state := .active
  published := []

/-- A history of command loops. -/
def cycles (T : Timeouts K) (s : StatusState K) (cs : List (Cycle K)) : StatusState K := cs.foldl (cycle T) s

/-! ## The hand-over of clouds -/

/-- Where the worker thread, `pointCloudTransformThread` 208-245, is.  A cloud message is represented by the number
of its arrival. -/
inductive WPc where
  /-- before the wait, 209-211 -/
  | top
  /-- in `wait`, 212 -/
  | waiting
  /-- before the loop test, 214 -/
  | test
  /-- in the loop, before the lock of 217 and the question of 218 -/
  | ask
  /-- the message is copied and the lock released, 223-224 -/
  | copied (m : ℕ)
  /-- the cloud is in the local frame, before the guard of 233 -/
  | transformed (m : ℕ)
  /-- the guard is taken, before 234 -/
  | guarded (m : ℕ)
  /-- the flag is set, before 235 -/
  | flagged (m : ℕ)
  /-- the cloud is handed over, before the guard is released -/
  | moved
deriving DecidableEq

/-- Where the command loop, 81-117, is. -/
inductive CPc where
  /-- between two timer events -/
  | idle
  /-- before the loop test, 85 -/
  | polling
  /-- in the loop: the subscriber callbacks are called here, 86 -/
  | pumping
  /-- past the loop, before the guard of 104 -/
  | leaving
  /-- the guard is taken, before 106 -/
  | guarded
  /-- the planner has run, before 107 -/
  | ran
  /-- the flag is reset, before the guard is released, 108 -/
  | cleared
deriving DecidableEq

/-- The two threads that can hold `transformed_cloud_mutex_`. -/
inductive Holder where
  | worker
  | loop
deriving DecidableEq

/-- The shared state.  `newest` is the number of the newest cloud message received (0: the empty message the node
is constructed with), `flag` is `cloud_transformed_`, `cloud` is the planner's cloud: the message it was made
from and the number of the transformation that made it; `made` counts transformations; `runs` are the clouds the
planner has run on, newest first. -/
structure Feed where
  newest : ℕ
  wpc : WPc
  cpc : CPc
  flag : Bool
  lock : Option Holder
  cloud : ℕ × ℕ
  made : ℕ
  runs : List (ℕ × ℕ)

/-- After `startNode`, 67-79, once all mutexes exist (start-up itself: `BootStep` below). -/
def feedInit : Feed where
  newest := 0
  wpc := .top
  cpc := .idle
  flag := false
  lock := none
  cloud := (0, 0)
  made := 0
  runs := []

/-- What the program can do next.  The subscriber callbacks run only inside `callAvailable` of line 86 — `main`
(safe_landing_planner_node_main.cpp) does not spin — so clouds arrive only while the command loop is `pumping`.
The interlude where `ros::ok()` is false (shutdown) is not modelled: then the program is ending. -/
inductive Step : Feed → Feed → Prop where
  /-- 211-212: the lock is taken and the wait begins -/
  | wait {s} : s.wpc = .top → Step s { s with wpc := .waiting }
  /-- 212: the standard permits `wait` to return without a notification -/
  | spurious {s} : s.wpc = .waiting → Step s { s with wpc := .test }
  /-- `pointCloudCallback`, 52-59, when the worker is waiting: it is woken -/
  | receiveWake {s} : s.cpc = .pumping → s.wpc = .waiting → Step s { s with newest := s.newest + 1, wpc := .test }
  /-- `pointCloudCallback`, 52-59, when it is not: the notification is lost -/
  | receive {s} : s.cpc = .pumping → s.wpc ≠ .waiting → Step s { s with newest := s.newest + 1 }
  /-- 214 -/
  | testLoop {s} : s.wpc = .test → s.flag = false → Step s { s with wpc := .ask }
  /-- 214 -/
  | testLeave {s} : s.wpc = .test → s.flag = true → Step s { s with wpc := .top }
  /-- 217-224: the transform is available (never for the empty message: it names no frame) -/
  | copy {s} : s.wpc = .ask → 0 < s.newest → Step s { s with wpc := .copied s.newest }
  /-- 239-242: the transform is not available -/
  | unavailable {s} : s.wpc = .ask → Step s { s with wpc := .test }
  /-- 226-231 -/
  | transform {s m} : s.wpc = .copied m → Step s { s with wpc := .transformed m }
  /-- 236-238: the transformation throws -/
  | throws {s m} : s.wpc = .copied m → Step s { s with wpc := .test }
  /-- 233 -/
  | guard {s m} : s.wpc = .transformed m → s.lock = none → Step s { s with wpc := .guarded m, lock := some .worker }
  /-- 234 -/
  | setFlag {s m} : s.wpc = .guarded m → Step s { s with wpc := .flagged m, flag := true }
  /-- 235 -/
  | move {s m} : s.wpc = .flagged m →
      Step s { s with wpc := .moved, cloud := (m, s.made + 1), made := s.made + 1 }
  /-- 236: the guard goes out of scope -/
  | unguard {s} : s.wpc = .moved → Step s { s with wpc := .test, lock := none }
  /-- the timer fires, 81 -/
  | fire {s} : s.cpc = .idle → Step s { s with cpc := .polling }
  /-- 85: no cloud yet -/
  | pump {s} : s.cpc = .polling → s.flag = false → Step s { s with cpc := .pumping }
  /-- 86: `callAvailable` returns -/
  | pumped {s} : s.cpc = .pumping → Step s { s with cpc := .polling }
  /-- 85: a cloud is there (read without the guard) -/
  | leave {s} : s.cpc = .polling → s.flag = true → Step s { s with cpc := .leaving }
  /-- 104 -/
  | loopGuard {s} : s.cpc = .leaving → s.lock = none → Step s { s with cpc := .guarded, lock := some .loop }
  /-- 106 -/
  | run {s} : s.cpc = .guarded → Step s { s with cpc := .ran, runs := s.cloud :: s.runs }
  /-- 107 -/
  | clear {s} : s.cpc = .ran → Step s { s with cpc := .cleared, flag := false }
  /-- 108 -/
  | loopUnguard {s} : s.cpc = .cleared → Step s { s with cpc := .idle, lock := none }

/-- The states the program can reach. -/
inductive Reach : Feed → Prop where
  | init : Reach feedInit
  | step {s t} : Reach s → Step s t → Reach t

/-! ## Start-up -/

/-- Start-up of the node, `startNode` 69-72: how many of the three objects (`cloud_msg_mutex_`,
`transformed_cloud_mutex_`, `cloud_ready_cv_`) the main thread has created since it started the worker, and how far
the worker, 209-212, has come: before the lock, holding it, or in the wait; `none` is the dereference of a null
pointer. -/
structure Boot where
  created : ℕ
  worker : Option (Fin 3)
deriving DecidableEq

/-- Line 69 has been executed. -/
def bootInit : Boot := ⟨0, some 0⟩

/-- `startNode`, 70-72, and the first statements of the worker, 211-212. -/
inductive BootStep : Boot → Boot → Prop where
  | create {b} : b.created < 3 → BootStep b { b with created := b.created + 1 }
  | lock {b} : b.worker = some 0 → BootStep b { b with worker := if 1 ≤ b.created then some 1 else none }
  | wait {b} : b.worker = some 1 → BootStep b { b with worker := if 3 ≤ b.created then some 2 else none }

/-- The states start-up can reach. -/
inductive BootReach : Boot → Prop where
  | init : BootReach bootInit
  | step {a b} : BootReach a → BootStep a b → BootReach b

end SlpNode
end Avoidance
