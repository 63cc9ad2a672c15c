import Verif.Locks

/-!
# The mutexes of the local planner nodelet
(local_planner/src/nodes/local_planner_nodelet.cpp, waypoint_generator.cpp, avoidance_node.cpp,
transform_buffer.cpp)
-/

namespace Avoidance

/-- All mutexes of the process: `config_mutex_` (dynamic reconfigure), `running_mutex_` and
`waypoints_mutex_` of the nodelet, one `camera_mutex_` per camera, `buffered_transforms_mutex_`,
`transformed_cloud_mutex_`, the mutex of the transform buffer, `running_mutex_` of the waypoint
generator, and `param_cb_mutex_` of the avoidance node. -/
inductive Mtx where
  | config | running | waypoints | camera (i : ℕ) | bufferedTransforms | transformedCloud
  | tfBuffer | generator | paramCb
deriving DecidableEq

/-- All threads: the worker (`threadFunction`), the command loop, the main thread in `ros::spin`, one
transform thread per camera, the transform buffer thread, the nodelet's own callback queue (dynamic
reconfigure), the parameter poll of the avoidance node, and the destructor. -/
inductive Thr where
  | worker | cmdLoop | spin | transform (i : ℕ) | tfListener | reconfigure | paramPoll | destructor
deriving DecidableEq

namespace LockProg

/-- Sequence of scopes. -/
def seqs {L : Type} : List (LockProg L) → LockProg L
  | [] => .skip
  | p :: ps => .seq p (seqs ps)

/-- One `lock_guard` around code without further locks. -/
def once {L : Type} (l : L) : LockProg L := .guarded l .skip

end LockProg
open LockProg

/-- Callbacks in the global queue: `pointCloudCallback` of some camera (406-433),
`px4ParamsCallback` (avoidance_node.cpp:107-124), and callbacks without locks (positions, state,
goals). -/
def globalCallback (n : ℕ) : LockProg Mtx :=
  .choice .skip (.choice (once .paramCb)
    (seqs ((List.range n).map fun i =>
      .choice .skip (.guarded (.camera i) (.choice .skip (once .bufferedTransforms))))))

/-- `threadFunction` (455-488), with `numTransformedClouds` (152-160), `updatePlannerInfo` (162-197),
`getPX4Parameters` (avoidance_node.cpp:184-187), `setFOV` and `setPlannerInfo` of the generator
(waypoint_generator.cpp:218-224, 455-458). -/
def workerProg (n : ℕ) : LockProg Mtx :=
  .star (seqs [
    .star (seqs [seqs ((List.range n).map fun i => once (.camera i)),
      once .transformedCloud, once .transformedCloud]),
    seqs ((List.range n).map fun i => once (.camera i)),
    .guarded .running (seqs [
      seqs ((List.range n).map fun i => .guarded (.camera i) (once .generator)),
      once .paramCb,
      .guarded .waypoints (once .generator)])])

/-- `cmdLoopCallback` (233-277): callbacks are processed while the waypoint mutex is held;
`updateState` and `getWaypoints` (waypoint_generator.cpp:231, 413). -/
def cmdLoopProg (n : ℕ) : LockProg Mtx :=
  .star (.guarded .waypoints (seqs [.star (globalCallback n),
    .choice .skip (seqs [once .generator, once .generator])]))

/-- `pointCloudTransformThread` (494-549), `getTransform` (transform_buffer.cpp:58-90). -/
def transformProg (i : ℕ) : LockProg Mtx :=
  .star (seqs [
    .guarded (.camera i) (.choice .skip (seqs [once .tfBuffer, once .tfBuffer,
      .choice .skip (once .transformedCloud)])),
    .choice (seqs [once .bufferedTransforms, once .bufferedTransforms])
      (seqs [once (.camera i), once (.camera i)])])

/-- `transformBufferThread` (364-385), `insertTransform` (transform_buffer.cpp:35-56). -/
def tfListenerProg : LockProg Mtx :=
  .star (.guarded .bufferedTransforms (.star (once .tfBuffer)))

/-- `dynamicReconfigureCallback` (435-440), called by the reconfigure server with its own mutex held;
`setSmoothingSpeed` (waypoint_generator.cpp:460-464). -/
def reconfigureProg : LockProg Mtx :=
  .star (.guarded .config (.guarded .running (once .generator)))

/-- The destructor (20-45). -/
def destructorProg (n : ℕ) : LockProg Mtx :=
  seqs [once .bufferedTransforms, once .transformedCloud,
    seqs ((List.range n).map fun i => once (.camera i))]

/-- The threads with `n` cameras. -/
def nodeletProg (n : ℕ) : Thr → LockProg Mtx
  | .worker => workerProg n
  | .cmdLoop => cmdLoopProg n
  | .spin => .star (globalCallback n)
  | .transform i => if i < n then transformProg i else .skip
  | .tfListener => tfListenerProg
  | .reconfigure => reconfigureProg
  | .paramPoll => .star (once .paramCb)
  | .destructor => destructorProg n

/-- The global order. -/
def mtxRank : Mtx → ℕ
  | .config => 0
  | .running => 1
  | .waypoints => 2
  | .camera _ => 3
  | .bufferedTransforms => 4
  | .transformedCloud => 5
  | .tfBuffer => 5
  | .generator => 5
  | .paramCb => 5

theorem ordered_seqs {L : Type} (rank : L → ℕ) (held : List L) (ps : List (LockProg L)) :
    (seqs ps).Ordered rank held ↔ ∀ p ∈ ps, p.Ordered rank held := by
  induction ps with
  | nil => simp [seqs, LockProg.Ordered]
  | cons p ps ih => simp [seqs, LockProg.Ordered, ih]

theorem nodelet_ordered (n : ℕ) (t : Thr) : (nodeletProg n t).Ordered mtxRank [] := by
  cases t with
  | transform i =>
    show (if i < n then transformProg i else .skip).Ordered mtxRank []
    split_ifs
    · simp [transformProg, LockProg.Ordered, ordered_seqs, once, mtxRank]
    · trivial
  | _ => simp [nodeletProg, workerProg, cmdLoopProg, globalCallback, tfListenerProg, reconfigureProg,
      destructorProg, LockProg.Ordered, ordered_seqs, once, mtxRank]

/-- **C42.** With any number of cameras and under every interleaving, the threads of the local planner
nodelet never reach a state in which some of them wait only for each other's mutexes (or for one they
hold themselves). -/
theorem C42_no_deadlock (n : ℕ) (s : LockState Thr Mtx) (h : LockReach (nodeletProg n) s)
    (S : Finset Thr) (hS : S.Nonempty) : ¬ ∀ t ∈ S, ∃ l, ∃ u ∈ S, WaitsFor s t l u :=
  fun hw => no_deadlock (nodelet_ordered n) h S hS hw

/-- Waiting does occur (the hypothesis of C42 is not void): the worker can wait for the waypoint mutex
while the command loop holds it. -/
theorem C42_waiting_occurs : ∃ s, LockReach (nodeletProg 0) s ∧
    WaitsFor s .worker .waypoints .cmdLoop := by
  have h0 := LockReach.start (progs := nodeletProg 0)
  -- command loop takes the waypoint mutex
  have h1 := h0.step (LockStep.again (t := Thr.cmdLoop) rfl)
  have h2 := h1.step (LockStep.lock (t := Thr.cmdLoop) rfl rfl)
  -- worker goes ahead to its own request
  have h3 := h2.step (LockStep.again (t := Thr.worker) rfl)
  have h4 := h3.step (LockStep.seq (t := Thr.worker) rfl)
  have h5 := h4.step (LockStep.stop (t := Thr.worker) rfl)
  have h6 := h5.step (LockStep.seq (t := Thr.worker) rfl)
  have h7 := h6.step (LockStep.skip (t := Thr.worker) rfl)
  have h8 := h7.step (LockStep.seq (t := Thr.worker) rfl)
  have h9 := h8.step (LockStep.lock (t := Thr.worker) rfl rfl)
  have h10 := h9.step (LockStep.seq (t := Thr.worker) rfl)
  have h11 := h10.step (LockStep.skip (t := Thr.worker) rfl)
  have h12 := h11.step (LockStep.seq (t := Thr.worker) rfl)
  have h13 := h12.step (LockStep.lock (t := Thr.worker) rfl rfl)
  have h14 := h13.step (LockStep.skip (t := Thr.worker) rfl)
  have h15 := h14.step (LockStep.unlock (t := Thr.worker) rfl)
  have h16 := h15.step (LockStep.seq (t := Thr.worker) rfl)
  refine ⟨_, h16, ⟨?_, ?_⟩⟩
  · exact ⟨once .generator, _, rfl⟩
  · rfl

end Avoidance
