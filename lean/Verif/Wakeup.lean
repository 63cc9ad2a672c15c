import Verif.Nodelet

/-!
# Sleeping and waking of the local planner's threads
(local_planner/src/nodes/local_planner_nodelet.cpp)

`FeedState` (Nodelet.lean) lets every thread go on at any time.  Here the condition variables are added:
a thread that waits sleeps until it is notified (or 5 s have passed), and a notification nobody is waiting
for is lost.  `camera_cv_` is notified by the cloud callback, `transformed_cloud_cv_` by the transform
threads.
-/

namespace Avoidance

/-- Where a transform thread is, 494-549: about to look for a cloud; past the camera's mutex and about to
wait for the next cloud (537-545); waiting for it (546); waiting for transforms (542-543, notified every
5 ms by `transformBufferThread`, so it may go on at any time). -/
inductive TfPc where
  | look | beforeSleep | asleep | tf
deriving DecidableEq

/-- The node: clouds and worker as before, the transform threads, and whether the worker, when it is at
its `wait_for` (461), already sleeps. -/
structure WakeState where
  feed : FeedState
  tpc : ℕ → TfPc
  sleeps : Bool

/-- After start-up. -/
def wakeInit : WakeState := ⟨feedInit, fun _ => .look, false⟩

/-- What can happen. `thread i ok` is a step of camera `i`'s transform thread, `ok` telling whether the
transforms are available; the time-outs are those of the two `wait_for` calls. -/
inductive WakeEvent where
  | arrive (i : ℕ) (stamp : ℚ)
  | thread (i : ℕ) (ok : Bool)
  | worker
  | timeoutThread (i : ℕ)
  | timeoutWorker

/-- `transformed_cloud_cv_.notify_all`, 528: a sleeping worker looks again, 459. -/
def notifyWorker (n : ℕ) (s : WakeState) : WakeState :=
  if s.feed.pc = .wait ∧ s.sleeps = true then { s with feed := workerStep n s.feed, sleeps := false } else s

/-- A step of camera `i`'s transform thread, 494-549. -/
def threadStep (n : ℕ) (s : WakeState) (i : ℕ) (ok : Bool) : WakeState :=
  match s.tpc i with
  | .look =>
    if (s.feed.cams i).received then
      if ok then
        notifyWorker n { s with feed := cloudTransformed s.feed i, tpc := Function.update s.tpc i .beforeSleep }
      else { s with tpc := Function.update s.tpc i .tf }
    else { s with tpc := Function.update s.tpc i .beforeSleep }
  | .beforeSleep => { s with tpc := Function.update s.tpc i .asleep }
  | .asleep => s
  | .tf => { s with tpc := Function.update s.tpc i .look }

/-- `pointCloudCallback`, 406-433: the thread is notified (420) only if the cloud is not dropped (414-416). -/
def arriveStep (s : WakeState) (i : ℕ) (stamp : ℚ) : WakeState :=
  let c := s.feed.cams i
  let s' := { s with feed := cloudArrives s.feed i stamp }
  if c.received = true ∧ stamp - c.stamp < 3 / 10 then s'
  else if s.tpc i = .asleep then { s' with tpc := Function.update s.tpc i .look } else s'

/-- The effect of an event with `n` cameras; 455-488 for the worker. -/
def wakeStep (n : ℕ) (s : WakeState) : WakeEvent → WakeState
  | .arrive i stamp => if i < n then arriveStep s i stamp else s
  | .thread i ok => if i < n then threadStep n s i ok else s
  | .worker => if s.feed.pc = .wait then { s with sleeps := true } else { s with feed := workerStep n s.feed, sleeps := false }
  | .timeoutThread i => if i < n ∧ s.tpc i = .asleep then { s with tpc := Function.update s.tpc i .look } else s
  | .timeoutWorker => notifyWorker n s

end Avoidance
