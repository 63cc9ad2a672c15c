import Verif.Races
import Verif.NodeletLocks
import Mathlib.Tactic.FinCases

/-!
# Data shared by the threads of the local planner nodelet
(local_planner/src/nodes/local_planner_nodelet.cpp, waypoint_generator.cpp, avoidance/src/avoidance_node.cpp)

The programs of `NodeletLocks` with their accesses to shared data.  Branches and loop exits are
nondeterministic, so absence of races is proved for more executions than the node has.
-/

namespace Avoidance

/-- Data shared between threads.
* `position`: `newest_position_`, `newest_orientation_`, `last_position_`; `velocity`: `velocity_`;
* `vehicleState`: `armed_`, `nav_state_`; `positionReceived`: `position_received_`;
* `goal`: `goal_position_`, `prev_goal_position_`, `desired_velocity_`, `is_land_waypoint_`,
  `is_takeoff_waypoint_`; `newGoal`: `new_goal_`;
* `camera i`: clouds, flags and field of view in `cameras_[i]`; `bufferedTransforms`; `tfBuffer`;
* `generator`: the data of the waypoint generator;
* `planner`: the data of `LocalPlanner` except its goal (`plannerGoal`), position (`plannerPosition`) and
  `timeout_termination_` (`plannerTimeout`);
* `lastWpTime`: `last_wp_time_`; `waypoint`: `newest_waypoint_position_` and the like;
* `px4`, `missionSpeed`, `status`: `px4_`, `mission_item_speed_`, `companion_state_` of the avoidance node.

(local_planner_nodelet.h:54-73, 175-258; local_planner.h; avoidance_node.h:60-92) -/
inductive Loc where
  | position | velocity | vehicleState | positionReceived | goal | newGoal
  | camera (i : ℕ) | bufferedTransforms | tfBuffer | generator
  | planner | plannerGoal | plannerPosition | plannerTimeout
  | lastWpTime | waypoint | px4 | missionSpeed | status
deriving DecidableEq

/-- The threads of `Thr`, and the one that publishes the status (avoidance_node.cpp:29-31, 45). -/
inductive NThr where
  | worker | cmdLoop | spin | transform (i : ℕ) | tfListener | reconfigure | paramPoll | statusLoop | destructor
deriving DecidableEq

namespace AccProg

/-- Sequence. -/
def seqs {L X : Type} : List (AccProg L X) → AccProg L X
  | [] => .skip
  | p :: ps => .seq p (seqs ps)

/-- One of several, or none. -/
def oneOf {L X : Type} : List (AccProg L X) → AccProg L X
  | [] => .skip
  | p :: ps => .choice p (oneOf ps)

/-- Read. -/
def rd {L X : Type} (x : X) : AccProg L X := .access x false

/-- Write. -/
def wr {L X : Type} (x : X) : AccProg L X := .access x true

/-- A mutex taken and released. -/
def once {L X : Type} (l : L) : AccProg L X := .guarded l .skip

end AccProg
open AccProg

/-- Callbacks in the global queue: positions (199-205), velocities (207-209), vehicle state (211-231),
clicked point (318-320, 392-393), clicked goal (322-329), goal topic (331-337), goals of the autopilot
(339-361), mission (avoidance_node.cpp:169-182), parameters (107-124), and point clouds (406-433). -/
def callbackAcc (n : ℕ) : AccProg Mtx Loc :=
  oneOf ([seqs [rd .position, wr .position, wr .positionReceived],
    wr .velocity,
    wr .vehicleState,
    rd .plannerPosition,
    seqs [wr .newGoal, rd .goal, wr .goal, rd .plannerGoal, wr .goal],
    seqs [rd .goal, wr .goal, wr .newGoal],
    seqs [rd .goal, wr .newGoal, wr .goal],
    wr .missionSpeed,
    .guarded .paramCb (wr .px4)] ++
    (List.range n).map fun i => .guarded (.camera i) (seqs [rd (.camera i), oneOf [seqs [wr (.camera i),
      oneOf [.guarded .bufferedTransforms (wr .bufferedTransforms)]]]]))

/-- `updatePlannerInfo`, 162-197, and `setFOV` of the generator (waypoint_generator.cpp:218-224). -/
def updateInfoAcc (n : ℕ) : AccProg Mtx Loc :=
  seqs [wr .planner,
    seqs ((List.range n).map fun i => .guarded (.camera i) (seqs [rd (.camera i), wr (.camera i), wr .planner,
      .guarded .generator (wr .generator)])),
    rd .position, rd .velocity, wr .plannerPosition, wr .planner, rd .vehicleState,
    rd .newGoal, oneOf [seqs [rd .goal, wr .plannerGoal, wr .newGoal]],
    rd .waypoint, .guarded .paramCb (rd .px4), rd .missionSpeed, wr .planner]

/-- `threadFunction`, 455-488, with `numTransformedClouds` (153-160), `runPlanner`, the visualisation
(471-472), `publishLaserScan` (442-453) and `setPlannerInfo` (waypoint_generator.cpp:455-458). -/
def workerAcc (n : ℕ) : AccProg Mtx Loc :=
  .star (seqs [
    .star (seqs [seqs ((List.range n).map fun i => .guarded (.camera i) (rd (.camera i))),
      once .transformedCloud, once .transformedCloud]),
    seqs ((List.range n).map fun i => .guarded (.camera i) (rd (.camera i))),
    .guarded .running (seqs [updateInfoAcc n,
      rd .plannerGoal, rd .plannerPosition, rd .planner, wr .planner,
      rd .plannerGoal, rd .planner, rd .waypoint, rd .position,
      rd .planner,
      .guarded .waypoints (seqs [.guarded .generator (wr .generator), wr .lastWpTime])]),
    rd .lastWpTime])

/-- `cmdLoopCallback`, 233-277, and `calculateWaypoints`, 283-316 (`updateState`, `getWaypoints`,
`getOfftrackPointsForVisualization` of the generator: waypoint_generator.cpp:231, 413, 461). -/
def cmdLoopAcc (n : ℕ) : AccProg Mtx Loc :=
  .star (.guarded .waypoints (seqs [
    .star (seqs [rd .positionReceived, callbackAcc n, rd .plannerTimeout, oneOf [wr .status]]),
    rd .lastWpTime, oneOf [wr .status], rd .status,
    oneOf [seqs [rd .vehicleState, rd .position, rd .velocity, rd .goal,
      .guarded .generator (wr .generator), .guarded .generator (wr .generator), .guarded .generator (rd .generator),
      rd .waypoint, wr .waypoint, rd .position]],
    wr .positionReceived]))

/-- `pointCloudTransformThread`, 494-549. -/
def transformAcc (i : ℕ) : AccProg Mtx Loc :=
  .star (seqs [
    .guarded (.camera i) (seqs [rd (.camera i), oneOf [seqs [.guarded .tfBuffer (rd .tfBuffer),
      .guarded .tfBuffer (rd .tfBuffer), oneOf [seqs [wr (.camera i), once .transformedCloud]]]]]),
    .choice (seqs [once .bufferedTransforms, once .bufferedTransforms]) (seqs [once (.camera i), once (.camera i)])])

/-- `transformBufferThread`, 369-390. -/
def tfListenerAcc : AccProg Mtx Loc :=
  .star (.guarded .bufferedTransforms (seqs [rd .bufferedTransforms, .star (.guarded .tfBuffer (wr .tfBuffer))]))

/-- `dynamicReconfigureCallback`, 435-440 (`dynamicReconfigureSetParams`, local_planner.cpp:17-49;
`setSmoothingSpeed` of the generator). -/
def reconfigureAcc : AccProg Mtx Loc :=
  .star (.guarded .config (.guarded .running (seqs [wr .planner, wr .plannerTimeout, rd .plannerGoal,
    oneOf [wr .plannerGoal], .guarded .generator (wr .generator)])))

/-- The threads with `n` cameras: also the parameter poll (avoidance_node.cpp:135-167), the status loop
(45, 52-59), and the destructor (20-45). -/
def nodeletAcc (n : ℕ) : NThr → AccProg Mtx Loc
  | .worker => workerAcc n
  | .cmdLoop => cmdLoopAcc n
  | .spin => .star (callbackAcc n)
  | .transform i => if i < n then transformAcc i else .skip
  | .tfListener => tfListenerAcc
  | .reconfigure => reconfigureAcc
  | .paramPoll => .star (.guarded .paramCb (seqs [rd .px4, wr .px4]))
  | .statusLoop => .star (rd .status)
  | .destructor => seqs [once .bufferedTransforms, once .transformedCloud,
      seqs ((List.range n).map fun i => once (.camera i))]

/-! ## Auxiliary: walking through the programs -/

section walk
variable {L X : Type} [DecidableEq L] [DecidableEq X]

/-- Every access to `x` satisfies `P`. -/
def AccProg.AllSites (x : X) (P : Bool → List L → Prop) : List L → AccProg L X → Prop
  | _, .skip => True
  | held, .access y w => y = x → P w held
  | held, .seq a b => a.AllSites x P held ∧ b.AllSites x P held
  | held, .choice a b => a.AllSites x P held ∧ b.AllSites x P held
  | held, .star a => a.AllSites x P held
  | held, .guarded l body => body.AllSites x P (l :: held)

theorem allSites_mem {x : X} {P : Bool → List L → Prop} {p : AccProg L X} :
    ∀ {held}, p.AllSites x P held → ∀ e ∈ p.sites x held, P e.1 e.2 := by
  induction p with
  | skip => intro held _ e he; simp [AccProg.sites] at he
  | access y w =>
    intro held h e he
    unfold AccProg.sites at he
    by_cases hy : y = x
    · rw [if_pos hy, List.mem_singleton] at he
      subst he; exact h hy
    · rw [if_neg hy] at he; simp at he
  | seq a b iha ihb =>
    intro held h e he
    rcases List.mem_append.1 he with he | he
    · exact iha h.1 e he
    · exact ihb h.2 e he
  | choice a b iha ihb =>
    intro held h e he
    rcases List.mem_append.1 he with he | he
    · exact iha h.1 e he
    · exact ihb h.2 e he
  | star a ih => intro held h e he; exact ih h e he
  | guarded l body ih => intro held h e he; exact ih h e he

theorem allSites_seqs {x : X} {P : Bool → List L → Prop} {held : List L} (ps : List (AccProg L X)) :
    (seqs ps).AllSites x P held ↔ ∀ p ∈ ps, p.AllSites x P held := by
  induction ps with
  | nil => simp [seqs, AccProg.AllSites]
  | cons p ps ih => simp [seqs, AccProg.AllSites, ih]

theorem allSites_oneOf {x : X} {P : Bool → List L → Prop} {held : List L} (ps : List (AccProg L X)) :
    (oneOf ps).AllSites x P held ↔ ∀ p ∈ ps, p.AllSites x P held := by
  induction ps with
  | nil => simp [oneOf, AccProg.AllSites]
  | cons p ps ih => simp [oneOf, AccProg.AllSites, ih]

omit [DecidableEq L] [DecidableEq X] in
theorem passes_seqs {F : L → Prop} (ps : List (AccProg L X)) : (seqs ps).Passes F ↔ ∀ p ∈ ps, p.Passes F := by
  induction ps with
  | nil => simp [seqs, AccProg.Passes]
  | cons p ps ih => simp [seqs, AccProg.Passes, ih]

omit [DecidableEq L] [DecidableEq X] in
theorem passes_oneOf {F : L → Prop} (ps : List (AccProg L X)) : (oneOf ps).Passes F := by
  induction ps with
  | nil => trivial
  | cons p ps ih => exact Or.inr ih

end walk

theorem locks_seqs (rank : Mtx → ℕ) (held : List Mtx) (ps : List (AccProg Mtx Loc)) :
    (seqs ps).locks.Ordered rank held ↔ ∀ p ∈ ps, p.locks.Ordered rank held := by
  induction ps with
  | nil => simp [seqs, AccProg.locks, LockProg.Ordered]
  | cons p ps ih => simp [seqs, AccProg.locks, LockProg.Ordered, ih]

theorem locks_oneOf (rank : Mtx → ℕ) (held : List Mtx) (ps : List (AccProg Mtx Loc)) :
    (oneOf ps).locks.Ordered rank held ↔ ∀ p ∈ ps, p.locks.Ordered rank held := by
  induction ps with
  | nil => simp [oneOf, AccProg.locks, LockProg.Ordered]
  | cons p ps ih => simp [oneOf, AccProg.locks, LockProg.Ordered, ih]

/-- The guard of each piece of data that has one: the data is only touched while it is held. -/
def guardOf : Loc → Option Mtx
  | .camera i => some (.camera i)
  | .bufferedTransforms => some .bufferedTransforms
  | .tfBuffer => some .tfBuffer
  | .generator => some .generator
  | .planner => some .running
  | .px4 => some .paramCb
  | _ => none

theorem guarded_sites (n : ℕ) (x : Loc) (l : Mtx) (h : guardOf x = some l) (t : NThr) :
    (nodeletAcc n t).AllSites x (fun _ held => l ∈ held) [] := by
  cases x <;> simp only [guardOf, reduceCtorEq, Option.some.injEq] at h <;> subst h <;> cases t <;>
    simp only [nodeletAcc] <;> (try split_ifs) <;>
    simp [workerAcc, cmdLoopAcc, callbackAcc, updateInfoAcc, transformAcc, tfListenerAcc, reconfigureAcc,
      AccProg.AllSites, allSites_seqs, allSites_oneOf, rd, wr, once] <;> (try (intros; omega))

/-- **C89.** With any number of cameras and under every interleaving, no two threads access at the same
time (one of them writing) the clouds and fields of view of a camera, the list of buffered transforms,
the transform buffer, the waypoint generator's data, the planner's data (but for its goal, position and
time-out), the autopilot's parameters, or the time of the last plan. -/
theorem C89_race_free_partial (n : ℕ) (s : AccState NThr Mtx Loc) (h : AccReach (nodeletAcc n) s) :
    (∀ i, ¬ Race s (.camera i)) ∧ ¬ Race s .bufferedTransforms ∧ ¬ Race s .tfBuffer ∧ ¬ Race s .generator ∧
    ¬ Race s .planner ∧ ¬ Race s .px4 ∧ ¬ Race s .lastWpTime := by
  have key : ∀ x l, guardOf x = some l → ¬ Race s x := fun x l hx =>
    no_race (fun t u _ e he f hf _ => ⟨l, allSites_mem (guarded_sites n x l hx t) e he,
      allSites_mem (guarded_sites n x l hx u) f hf⟩) h
  refine ⟨fun i => key _ _ rfl, key _ _ rfl, key _ _ rfl, key _ _ rfl, key _ _ rfl, key _ _ rfl, ?_⟩
  -- the time of the last plan: written by the worker and read by the command loop under the waypoint mutex
  have hw : (nodeletAcc n .worker).AllSites .lastWpTime (fun w held => w = true → .waypoints ∈ held) [] := by
    simp [nodeletAcc, workerAcc, updateInfoAcc, AccProg.AllSites, allSites_seqs, allSites_oneOf, rd, wr, once]
  have hc : (nodeletAcc n .cmdLoop).AllSites .lastWpTime (fun w held => w = false ∧ .waypoints ∈ held) [] := by
    simp [nodeletAcc, cmdLoopAcc, callbackAcc, AccProg.AllSites, allSites_seqs, allSites_oneOf, rd, wr, once]
  have ho : ∀ t, t ≠ .worker → t ≠ .cmdLoop → (nodeletAcc n t).AllSites .lastWpTime (fun _ _ => False) [] := by
    intro t h1 h2
    cases t <;> first | exact absurd rfl h1 | exact absurd rfl h2 | skip
    all_goals
      simp only [nodeletAcc]
      (try split_ifs) <;>
      simp [callbackAcc, transformAcc, tfListenerAcc, reconfigureAcc, AccProg.AllSites, allSites_seqs,
        allSites_oneOf, rd, wr, once]
  refine no_race (fun t u hne e he f hf hwr => ?_) h
  have side : ∀ t : NThr, ∀ e ∈ (nodeletAcc n t).sites .lastWpTime [], (t = .worker ∧ (e.1 = true → .waypoints ∈ e.2)) ∨
      (t = .cmdLoop ∧ e.1 = false ∧ .waypoints ∈ e.2) := by
    intro t e he
    by_cases h1 : t = .worker
    · subst h1; exact Or.inl ⟨rfl, allSites_mem hw e he⟩
    · by_cases h2 : t = .cmdLoop
      · subst h2; exact Or.inr ⟨rfl, allSites_mem hc e he⟩
      · exact absurd (allSites_mem (ho t h1 h2) e he) id
  rcases side t e he with ⟨h1, k1⟩ | ⟨h1, k1, k2⟩ <;> rcases side u f hf with ⟨h2, m1⟩ | ⟨h2, m1, m2⟩
  · exact absurd (h1.trans h2.symm) hne
  · refine ⟨.waypoints, k1 ?_, m2⟩
    rcases hwr with hwr | hwr
    · exact hwr
    · rw [m1] at hwr; cases hwr
  · refine ⟨.waypoints, k2, m1 ?_⟩
    rcases hwr with hwr | hwr
    · rw [k1] at hwr; cases hwr
    · exact hwr
  · exact absurd (h1.trans h2.symm) hne

/-- The annotated programs keep the lock order, too. -/
theorem nodeletAcc_ordered (n : ℕ) (t : NThr) : (nodeletAcc n t).locks.Ordered mtxRank [] := by
  cases t <;> simp only [nodeletAcc] <;> (try split_ifs) <;>
    simp [workerAcc, cmdLoopAcc, callbackAcc, updateInfoAcc, transformAcc, tfListenerAcc, reconfigureAcc,
      AccProg.locks, LockProg.Ordered, locks_seqs, locks_oneOf, rd, wr, once, mtxRank]

/-- **C42, with the accesses.** The same programs never deadlock. -/
theorem C42_no_deadlock_with_data (n : ℕ) (s : AccState NThr Mtx Loc) (h : AccReach (nodeletAcc n) s)
    (S : Finset NThr) (hS : S.Nonempty) : ¬ ∀ t ∈ S, ∃ l, ∃ u ∈ S, WaitsFor s.locks t l u :=
  fun hw => no_deadlock (nodeletAcc_ordered n) (locks_reach h) S hS hw

/-! ## The races there are -/

/-- Finds a way to an access. -/
syntax "gets" : tactic
macro_rules
  | `(tactic| gets) => `(tactic| first
      | exact AccProg.Gets.here
      | (apply AccProg.Gets.guarded (by simp); gets)
      | (apply AccProg.Gets.loop; gets)
      | (apply AccProg.Gets.first; gets)
      | (apply AccProg.Gets.left; gets)
      | (refine AccProg.Gets.second (by simp [AccProg.Passes, passes_seqs, passes_oneOf, rd, wr, once, updateInfoAcc]) ?_; gets)
      | (apply AccProg.Gets.right; gets))

/-- Unfolds the programs for `gets`. -/
macro "find" : tactic => `(tactic| (
  simp only [nodeletAcc, workerAcc, cmdLoopAcc, callbackAcc, updateInfoAcc, reconfigureAcc, List.cons_append, oneOf, seqs,
    rd, wr, once]
  gets))

/-- **C89, violated** for the rest (finding): vehicle position, velocity and state, the goal and its
"new" flag, the waypoint last sent, the mission speed, the planner's goal, position and time-out, the flag
for a received position and the reported status are read by one thread while another one can be writing
them. -/
theorem C89_races_violated (n : ℕ) (x : Loc) (hx : x ∈ [Loc.position, .velocity, .vehicleState, .positionReceived, .goal,
    .newGoal, .plannerGoal, .plannerPosition, .plannerTimeout, .waypoint, .missionSpeed, .status]) :
    ∃ s, AccReach (nodeletAcc n) s ∧ Race s x := by
  have ws : ∀ x w w', (nodeletAcc n .worker).Gets x w (fun _ => True) [.running] →
      (nodeletAcc n .spin).Gets x w' (fun l => l ∉ [Mtx.running]) [] → (w = true ∨ w' = true) →
      ∃ s, AccReach (nodeletAcc n) s ∧ Race s x := fun x w w' h1 h2 h3 => race_reached (by decide) h1 h2 h3
  fin_cases hx
  · exact ws _ false true (by find) (by find) (Or.inr rfl)
  · exact ws _ false true (by find) (by find) (Or.inr rfl)
  · exact ws _ false true (by find) (by find) (Or.inr rfl)
  · exact race_reached (t := .cmdLoop) (u := .spin) (w := false) (w' := true) (H := [.waypoints]) (H' := []) (by decide)
      (by find) (by find) (Or.inr rfl)
  · exact ws _ false true (by find) (by find) (Or.inr rfl)
  · exact ws _ false true (by find) (by find) (Or.inr rfl)
  · exact ws _ true false (by find) (by find) (Or.inl rfl)
  · exact ws _ true false (by find) (by find) (Or.inl rfl)
  · exact race_reached (t := .reconfigure) (u := .cmdLoop) (w := true) (w' := false) (H := [.config, .running])
      (H' := [.waypoints]) (by decide) (by find) (by find) (Or.inl rfl)
  · exact race_reached (t := .worker) (u := .cmdLoop) (w := false) (w' := true) (H := [.running])
      (H' := [.waypoints]) (by decide) (by find) (by find) (Or.inr rfl)
  · exact ws _ false true (by find) (by find) (Or.inr rfl)
  · exact race_reached (t := .cmdLoop) (u := .statusLoop) (w := true) (w' := false) (H := [.waypoints])
      (H' := []) (by decide) (by find) (by find) (Or.inl rfl)

/-- The guarded data is indeed shared: worker and reconfiguration both write the planner's data, worker
and command loop both write the generator's. -/
example (n : ℕ) : (nodeletAcc n .worker).Gets .planner true (fun _ => True) [.running] ∧
    (nodeletAcc n .reconfigure).Gets .planner true (fun _ => True) [.config, .running] ∧
    (nodeletAcc n .worker).Gets .generator true (fun _ => True) [.running, .waypoints, .generator] ∧
    (nodeletAcc n .cmdLoop).Gets .generator true (fun _ => True) [.waypoints, .generator] :=
  ⟨by find, by find, by find, by find⟩

end Avoidance
