import Verif.NodeletLocks

/-!
# Ending the nodes
(local_planner/src/nodes/local_planner_nodelet.cpp 20-45, 233-277, 369-391, 406-440, 455-488, 494-549; avoidance_node.cpp 18, 39, 126-166;
safe_landing_planner_node.cpp 60-70, 207-245, safe_landing_planner_node_main.cpp)

Model only.  The language of `Locks` with the flags that end loops, and joining of threads.  A `cv.wait_for` has a time-out, so it is
the end of a scope and a new one, and it always comes back; work that takes no mutex and no flag is `skip`.
-/

namespace Avoidance

/-- Control structure of a piece of code, as far as mutexes, flags and joining are concerned.
* `star`: a loop that ends when it likes (its conditions are not modelled);
* `whileRunning p`: `while (!should_exit_) p`;
* `ifRunning p`: `if (should_exit_) break; p` as the rest of the body of such a loop (the flag is never reset, so that leaving the body ends the loop);
* `retest c p`: the test of `while (cond && !should_exit_) p` after `cond` (code `c`) has been evaluated with any result;
* `waitPosition p`: `while (!position_received_ && ros::ok()) p`;
* `takePosition`: `position_received_ = false`;
* `setExit`: `should_exit_ = true`;
* `join t`: `if (t.joinable()) t.join()`. -/
inductive XProg (T L : Type) where
  | skip
  | seq (a b : XProg T L)
  | choice (a b : XProg T L)
  | star (a : XProg T L)
  | guarded (l : L) (body : XProg T L)
  | whileRunning (p : XProg T L)
  | ifRunning (p : XProg T L)
  | retest (c p : XProg T L)
  | waitPosition (p : XProg T L)
  | takePosition
  | setExit
  | join (t : T)

/-- What a thread still has to do: a program, or the end of a scope. -/
inductive XTodo (T L : Type) where
  | run (p : XProg T L)
  | unlock (l : L)

/-- The process: what each thread has left to do, who owns each mutex, `should_exit_`, `ros::ok()`, `position_received_`, and which
threads have been joined. -/
structure XState (T L : Type) where
  cont : T → List (XTodo T L)
  owner : L → Option T
  exit : Bool
  ok : Bool
  pos : Bool
  joined : T → Bool

section
variable {T L : Type} [DecidableEq T] [DecidableEq L]

/-- Thread `t` goes on with `k`. -/
def XState.go (s : XState T L) (t : T) (k : List (XTodo T L)) : XState T L := { s with cont := Function.update s.cont t k }

/-- One step of thread `t`. -/
inductive XStep (s : XState T L) (t : T) : XState T L → Prop
  | skip {k} : s.cont t = .run .skip :: k → XStep s t (s.go t k)
  | seq {a b k} : s.cont t = .run (.seq a b) :: k → XStep s t (s.go t (.run a :: .run b :: k))
  | left {a b k} : s.cont t = .run (.choice a b) :: k → XStep s t (s.go t (.run a :: k))
  | right {a b k} : s.cont t = .run (.choice a b) :: k → XStep s t (s.go t (.run b :: k))
  | stop {a k} : s.cont t = .run (.star a) :: k → XStep s t (s.go t k)
  | again {a k} : s.cont t = .run (.star a) :: k → XStep s t (s.go t (.run a :: .run (.star a) :: k))
  | lock {l b k} : s.cont t = .run (.guarded l b) :: k → s.owner l = none →
      XStep s t { s.go t (.run b :: .unlock l :: k) with owner := Function.update s.owner l (some t) }
  | unlock {l k} : s.cont t = .unlock l :: k → XStep s t { s.go t k with owner := Function.update s.owner l none }
  | whileEnd {p k} : s.cont t = .run (.whileRunning p) :: k → s.exit = true → XStep s t (s.go t k)
  | whileBody {p k} : s.cont t = .run (.whileRunning p) :: k → s.exit = false → XStep s t (s.go t (.run p :: .run (.whileRunning p) :: k))
  | ifEnd {p k} : s.cont t = .run (.ifRunning p) :: k → s.exit = true → XStep s t (s.go t k)
  | ifBody {p k} : s.cont t = .run (.ifRunning p) :: k → s.exit = false → XStep s t (s.go t (.run p :: k))
  | retestEnd {c p k} : s.cont t = .run (.retest c p) :: k → XStep s t (s.go t k)
  | retestBody {c p k} : s.cont t = .run (.retest c p) :: k → s.exit = false → XStep s t (s.go t (.run p :: .run c :: .run (.retest c p) :: k))
  | posEnd {p k} : s.cont t = .run (.waitPosition p) :: k → (s.pos = true ∨ s.ok = false) → XStep s t (s.go t k)
  | posBody {p k} : s.cont t = .run (.waitPosition p) :: k → s.pos = false → s.ok = true → XStep s t (s.go t (.run p :: .run (.waitPosition p) :: k))
  | take {k} : s.cont t = .run .takePosition :: k → XStep s t { s.go t k with pos := false }
  | setExit {k} : s.cont t = .run .setExit :: k → XStep s t { s.go t k with exit := true }
  | join {u k} : s.cont t = .run (.join u) :: k → s.cont u = [] → XStep s t { s.go t k with joined := Function.update s.joined u true }

/-- What can happen next: a step of a thread, a position message, the end of `ros::ok()`, or nothing. -/
inductive XAct (T : Type) where
  | thread (t : T)
  | position
  | notOk
  | idle

/-- The effect of an action. -/
def XNext (s : XState T L) : XAct T → XState T L → Prop
  | .thread t, s' => XStep s t s'
  | .position, s' => s' = { s with pos := true }
  | .notOk, s' => s' = { s with ok := false }
  | .idle, s' => s' = s

/-- All threads at their beginning. -/
def xInit (progs : T → XProg T L) : XState T L := ⟨fun t => [.run (progs t)], fun _ => none, false, true, false, fun _ => false⟩

/-- Reachable states. -/
inductive XReach (progs : T → XProg T L) : XState T L → Prop
  | start : XReach progs (xInit progs)
  | step {s a s'} : XReach progs s → XNext s a s' → XReach progs s'

end

namespace XProg

/-- Sequence. -/
def seqs {T L : Type} : List (XProg T L) → XProg T L
  | [] => .skip
  | p :: ps => .seq p (seqs ps)

/-- One `lock_guard` around code without further locks. -/
def once {T L : Type} (l : L) : XProg T L := .guarded l .skip

end XProg
open XProg

/-- Callbacks in the global queue, as `globalCallback` of `NodeletLocks`: local_planner_nodelet.cpp:406-433, avoidance_node.cpp:82-124. -/
def xGlobalCallback (n : ℕ) : XProg Thr Mtx :=
  .choice .skip (.choice (once .paramCb)
    (seqs ((List.range n).map fun i =>
      .choice .skip (.guarded (.camera i) (.choice .skip (once .bufferedTransforms))))))

/-- `numTransformedClouds`, local_planner_nodelet.cpp:152-160. -/
def xCount (n : ℕ) : XProg Thr Mtx := seqs ((List.range n).map fun i => once (.camera i))

/-- `threadFunction`, local_planner_nodelet.cpp:455-488. -/
def xWorker (n : ℕ) : XProg Thr Mtx :=
  .whileRunning (seqs [
    xCount n,
    .retest (xCount n) (seqs [once .transformedCloud, once .transformedCloud]),
    .ifRunning (seqs [
      .guarded .running (seqs [
        seqs ((List.range n).map fun i => .guarded (.camera i) (once .generator)),
        once .paramCb,
        .guarded .waypoints (once .generator)]),
      .ifRunning .skip])])

/-- `cmdLoopCallback` and what it calls, local_planner_nodelet.cpp:233-277; called again and again by its timer. -/
def xCmdLoop (n : ℕ) : XProg Thr Mtx :=
  .star (.guarded .waypoints (seqs [.waitPosition (.star (xGlobalCallback n)),
    .choice .skip (seqs [once .generator, once .generator]), .takePosition]))

/-- `pointCloudTransformThread`, local_planner_nodelet.cpp:494-549. -/
def xTransform (i : ℕ) : XProg Thr Mtx :=
  .whileRunning (seqs [
    .guarded (.camera i) (.choice .skip (seqs [once .tfBuffer, once .tfBuffer, .choice .skip (once .transformedCloud)])),
    .ifRunning (.choice (seqs [once .bufferedTransforms, once .bufferedTransforms]) (seqs [once (.camera i), once (.camera i)]))])

/-- `transformBufferThread`, local_planner_nodelet.cpp:369-391: at most one transform is inserted per registered pair of frames; `m` is their number. -/
def xTfListener (m : ℕ) : XProg Thr Mtx :=
  .whileRunning (seqs [.guarded .bufferedTransforms (seqs ((List.range m).map fun _ => .choice .skip (once .tfBuffer))), .skip])

/-- `dynamicReconfigureCallback`, local_planner_nodelet.cpp:435-440. -/
def xReconfigure : XProg Thr Mtx := .star (.guarded .config (.guarded .running (once .generator)))

/-- `checkPx4Parameters`, avoidance_node.cpp:126-166.  Its `should_exit_` is a member of `AvoidanceNode`, which is set to false in the
constructor (line 8) and nowhere else: the loop has no end. -/
def xParamPoll : XProg Thr Mtx := .star (once .paramCb)

/-- `~LocalPlannerNodelet`, local_planner_nodelet.cpp:20-45. -/
def xDestructor (n : ℕ) : XProg Thr Mtx :=
  .seq .setExit (seqs [once .bufferedTransforms, once .transformedCloud,
    seqs ((List.range n).map fun i => .seq (once (.camera i)) (.join (.transform i))),
    .join .worker, .join .tfListener])

/-- The process, with `n` cameras and `m` registered transforms. -/
def xNodelet (n m : ℕ) : Thr → XProg Thr Mtx
  | .worker => xWorker n
  | .cmdLoop => xCmdLoop n
  | .spin => .star (xGlobalCallback n)
  | .transform i => if i < n then xTransform i else .skip
  | .tfListener => xTfListener m
  | .reconfigure => xReconfigure
  | .paramPoll => xParamPoll
  | .destructor => xDestructor n

/-- After the destructor's body the members are destroyed, among them `avoidance_node_` with its `std::thread worker_`
(avoidance_node.h:76, started in avoidance_node.cpp:39; `~AvoidanceNode` is empty, avoidance_node.cpp:18) and the threads of the nodelet.  The destructor of a
`std::thread` that was started and not joined calls `std::terminate`. -/
def memberThreads (n : ℕ) : List Thr := .worker :: .tfListener :: .paramPoll :: (List.range n).map .transform

/-- The process is terminated when the members are destroyed. -/
def terminates (n : ℕ) (s : XState Thr Mtx) : Bool := (memberThreads n).any fun t => !s.joined t

/-- Threads of the safe landing planner node: `main` and `worker_`. -/
inductive SlpThr where
  | main | worker
deriving DecidableEq

/-- The mutexes of its worker. -/
inductive SlpMtx where
  | cloudMsg | transformedCloud
deriving DecidableEq

/-- safe_landing_planner_node_main.cpp:3-13 after `startNode`, and `pointCloudTransformThread`, safe_landing_planner_node.cpp:207-245.  (The wait at line
212 has no time-out, and can also wait for ever; here it comes back.) -/
def slpProg : SlpThr → XProg SlpThr SlpMtx
  | .main => .join .worker
  | .worker => .whileRunning (seqs [once .cloudMsg, once .cloudMsg,
      .star (.ifRunning (seqs [once .cloudMsg, .choice .skip (once .transformedCloud)]))])

end Avoidance
