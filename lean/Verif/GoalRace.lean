import Verif.Nodelet
import Mathlib.Data.Rat.Floor

/-!
# C67 under interleaving: the goal is handed over without a mutex
(local_planner/src/nodes/local_planner_nodelet.cpp)

`goalStep` (Nodelet.lean) lets callbacks and the hand-over happen one after the other.  In the node they
run in different threads and nothing excludes one while the other is under way (C89_races_violated), so
here every assignment is a step of its own (and still assumed to be atomic, which a C++ `Eigen::Vector3f`
is not).
-/

namespace Avoidance
set_option linter.unusedSectionVars false
variable {K : Type*} [Field K] [LinearOrder K]

/-- An assignment. -/
abbrev GoalOp (K : Type*) := GoalState K → GoalState K

/-- `clickedGoalCallback`, 322-329, assignment by assignment. -/
def clickedOps (p : V3 K) : List (GoalOp K) :=
  [fun s => { s with new_goal := true },
   fun s => { s with prev_goal := s.goal },
   fun s => { s with goal := p.some' },
   fun s => { s with goal := ⟨s.goal.x, s.goal.y, s.planner_goal.z⟩ }]

/-- `updateGoalCallback`, 331-337, when goals are accepted and there is a marker at `p`. -/
def topicOps (p : V3 K) : List (GoalOp K) :=
  [fun s => { s with prev_goal := s.goal },
   fun s => { s with goal := p.some' },
   fun s => { s with new_goal := true }]

/-- Where the worker is in lines 185-189 of `updatePlannerInfo`. -/
inductive HandPc where
  | test | setGoal | setPrev | clear
deriving DecidableEq

/-- The node: the data, the worker's place in the hand-over, the assignments left of the running
callback, and (to state properties) every value the goal has had. -/
structure RaceState (K : Type*) where
  g : GoalState K
  pc : HandPc
  todo : List (GoalOp K)
  had : List (V3 (Option K))

/-- A step of the worker, 185-189. -/
def handStep (s : RaceState K) : RaceState K :=
  match s.pc with
  | .test => if s.g.new_goal then { s with pc := .setGoal } else s
  | .setGoal => { s with g := { s.g with planner_goal := s.g.goal }, pc := .setPrev }
  | .setPrev => { s with g := { s.g with planner_prev := s.g.prev_goal }, pc := .clear }
  | .clear => { s with g := { s.g with new_goal := false }, pc := .test }

/-- A step of the callback thread: the next assignment. -/
def callbackStep (s : RaceState K) : RaceState K :=
  match s.todo with
  | [] => s
  | f :: r => { s with g := f s.g, todo := r, had := s.had ++ [(f s.g).goal] }

/-- What can happen: the worker goes on, the callback goes on, or (when none is running) a goal is
clicked or comes in by the topic. -/
inductive RaceEvent (K : Type*) where
  | worker
  | callback
  | clicked (p : V3 K)
  | topic (p : V3 K)

/-- Its effect. -/
def raceStep (s : RaceState K) : RaceEvent K → RaceState K
  | .worker => handStep s
  | .callback => callbackStep s
  | .clicked p => if s.todo = [] then { s with todo := clickedOps p } else s
  | .topic p => if s.todo = [] ∧ s.g.accept_topic = true then { s with todo := topicOps p } else s

/-- Before anything happens. -/
def raceInit (g : GoalState K) : RaceState K := ⟨g, .test, [], [g.goal]⟩

/-- The assignments of a callback that is not interrupted are the callback of `goalStep`. -/
theorem race_callbacks_agree (g : GoalState K) (p : V3 K) (ms : List (V3 K)) :
    (clickedOps p).foldl (fun s f => f s) g = goalStep g (.clicked p) ∧
    (g.accept_topic = true → (topicOps p).foldl (fun s f => f s) g = goalStep g (.topic (p :: ms))) := by
  refine ⟨rfl, fun h => ?_⟩
  obtain ⟨a1, a2, a3, a4, a5, a6, a7, a8, a9, a10⟩ := g
  dsimp only at h
  subst h
  rfl

/-- And a hand-over that is not interrupted is that of `goalStep`. -/
theorem race_handOver_agree (s : RaceState K) (h : s.pc = .test) (hn : s.g.new_goal = true) :
    handStep (handStep (handStep (handStep s))) = { s with g := goalStep s.g .handOver } := by
  obtain ⟨g, pc, todo, had⟩ := s
  dsimp only at h hn
  subst h
  simp only [handStep, hn, if_true, goalStep, handOverGoal]

/-- **C67, under interleaving (what remains).** Whatever the interleaving, the planner's goal is always
one it started with or a value that the node's goal has had. -/
theorem C67_planner_goal_was_set (g : GoalState K) (hg : g.planner_goal = g.goal) (es : List (RaceEvent K)) :
    (es.foldl raceStep (raceInit g)).g.planner_goal ∈ (es.foldl raceStep (raceInit g)).had := by
  have ops : ∀ p : V3 K, (∀ f ∈ clickedOps p, ∀ g : GoalState K, (f g).planner_goal = g.planner_goal) ∧
      (∀ f ∈ topicOps p, ∀ g : GoalState K, (f g).planner_goal = g.planner_goal) := by
    intro p
    constructor <;> intro f hf g <;> simp only [clickedOps, topicOps, List.mem_cons, List.not_mem_nil, or_false] at hf
    · rcases hf with rfl | rfl | rfl | rfl <;> rfl
    · rcases hf with rfl | rfl | rfl <;> rfl
  let inv : RaceState K → Prop := fun s => s.g.planner_goal ∈ s.had ∧ s.g.goal ∈ s.had ∧
    ∀ f ∈ s.todo, ∀ g : GoalState K, (f g).planner_goal = g.planner_goal
  have step : ∀ s e, inv s → inv (raceStep s e) := by
    rintro s e ⟨h1, h2, h3⟩
    cases e with
    | worker =>
      show inv (handStep s)
      unfold handStep
      split
      · split_ifs
        · exact ⟨h1, h2, h3⟩
        · exact ⟨h1, h2, h3⟩
      · exact ⟨h2, h2, h3⟩
      · exact ⟨h1, h2, h3⟩
      · exact ⟨h1, h2, h3⟩
    | callback =>
      show inv (callbackStep s)
      unfold callbackStep
      split
      · exact ⟨h1, h2, h3⟩
      · rename_i f r hf
        refine ⟨?_, ?_, fun f' hf' => h3 f' (by rw [hf]; exact List.mem_cons_of_mem _ hf')⟩
        · show (f s.g).planner_goal ∈ s.had ++ [(f s.g).goal]
          rw [h3 f (by rw [hf]; exact List.mem_cons_self) s.g]
          exact List.mem_append_left _ h1
        · exact List.mem_append_right _ (List.mem_singleton.2 rfl)
    | clicked p =>
      show inv (if s.todo = [] then { s with todo := clickedOps p } else s)
      split_ifs
      · exact ⟨h1, h2, (ops p).1⟩
      · exact ⟨h1, h2, h3⟩
    | topic p =>
      show inv (if s.todo = [] ∧ s.g.accept_topic = true then { s with todo := topicOps p } else s)
      split_ifs
      · exact ⟨h1, h2, (ops p).2⟩
      · exact ⟨h1, h2, h3⟩
  have all : ∀ (es : List (RaceEvent K)) s, inv s → inv (es.foldl raceStep s) := by
    intro es
    induction es with
    | nil => exact fun s h => h
    | cons e es ih => exact fun s h => ih _ (step s e h)
  refine (all es _ ⟨?_, List.mem_singleton.2 rfl, fun f hf => absurd hf List.not_mem_nil⟩).1
  show g.planner_goal ∈ [g.goal]
  rw [hg]; exact List.mem_singleton.2 rfl

/-- The worker alone, when no goal is pending, changes nothing any more. -/
theorem race_stuck (s : RaceState K) (hp : s.pc = .test) (hn : s.g.new_goal = false) (m : ℕ) :
    (List.replicate m RaceEvent.worker).foldl raceStep s = s := by
  induction m with
  | zero => rfl
  | succ m ih =>
    rw [List.replicate_succ, List.foldl_cons]
    have : raceStep s .worker = s := by
      show handStep s = s
      unfold handStep
      rw [hp]
      dsimp only
      rw [hn]
      rfl
    rw [this, ih]

/-- **C67, violated (finding): a goal can be lost.** While the worker hands over one goal another one comes
in by the topic, between the reading of the goal and the clearing of the flag.  The node's goal is then
the new one, the planner's the old one, nothing is pending, and however long the worker goes on the
planner never learns of the new goal. -/
theorem C67_goal_lost_violated (g : GoalState K) (hn : g.new_goal = true) (ha : g.accept_topic = true) (p : V3 K) (m : ℕ) :
    let es : List (RaceEvent K) := [.worker, .worker, .worker, .topic p, .callback, .callback, .callback, .worker]
    let s := (es ++ List.replicate m RaceEvent.worker).foldl raceStep (raceInit g)
    s.g.goal = p.some' ∧ s.g.planner_goal = g.goal ∧ s.g.new_goal = false ∧ s.todo = [] := by
  intro es s
  have hs : s = es.foldl raceStep (raceInit g) := by
    show (es ++ List.replicate m RaceEvent.worker).foldl raceStep (raceInit g) = _
    rw [List.foldl_append]
    refine race_stuck _ ?_ ?_ m <;> simp [es, raceStep, handStep, callbackStep, raceInit, hn, ha, topicOps]
  rw [hs]
  simp [es, raceStep, handStep, callbackStep, raceInit, hn, ha, topicOps]

/-- **C67, violated (finding): a click can set the altitude.** A goal clicked on the map is meant to keep
the altitude of the planner's goal.  If the worker hands over the goal between the two assignments of the
callback, planner and node end up with the altitude of the click (which rviz sets to 0). -/
theorem C67_click_sets_altitude_violated (g : GoalState K) (p : V3 K) (m : ℕ) :
    let es : List (RaceEvent K) := [.clicked p, .callback, .callback, .callback, .worker, .worker, .worker, .worker, .callback]
    let s := (es ++ List.replicate m RaceEvent.worker).foldl raceStep (raceInit g)
    s.g.planner_goal = p.some' ∧ s.g.goal = p.some' ∧ s.g.new_goal = false ∧ s.todo = [] := by
  intro es s
  have hs : s = es.foldl raceStep (raceInit g) := by
    show (es ++ List.replicate m RaceEvent.worker).foldl raceStep (raceInit g) = _
    rw [List.foldl_append]
    refine race_stuck _ ?_ ?_ m <;> simp [es, raceStep, handStep, callbackStep, raceInit, clickedOps]
  rw [hs]
  simp [es, raceStep, handStep, callbackStep, raceInit, clickedOps, V3.some']

/-- **C67, under interleaving (when it works).** A goal from the topic reaches the planner if the worker
starts handing over after the callback has ended and before the next one begins. -/
theorem C67_quiet_hand_over (s : RaceState K) (hp : s.pc = .test) (ht : s.todo = []) (ha : s.g.accept_topic = true) (p : V3 K) :
    let es : List (RaceEvent K) := [.topic p, .callback, .callback, .callback, .worker, .worker, .worker, .worker]
    (es.foldl raceStep s).g.planner_goal = p.some' ∧ (es.foldl raceStep s).g.planner_prev = s.g.goal ∧
    (es.foldl raceStep s).g.new_goal = false := by
  obtain ⟨g, pc, todo, had⟩ := s
  dsimp only at hp ht ha
  subst hp ht
  simp [raceStep, handStep, callbackStep, ha, topicOps]

/-- A node flying at 5 m to (1, 2), with the goal (3, 4) coming in. -/
example : ∃ g : GoalState ℚ, g.new_goal = true ∧ g.accept_topic = true ∧
    let es : List (RaceEvent ℚ) := [.worker, .worker, .worker, .topic ⟨3, 4, 5⟩, .callback, .callback, .callback, .worker]
    (es.foldl raceStep (raceInit g)).g.planner_goal = ⟨some 1, some 2, some 5⟩ ∧
    (es.foldl raceStep (raceInit g)).g.goal = ⟨some 3, some 4, some 5⟩ :=
  ⟨⟨⟨some 1, some 2, some 5⟩, ⟨some 0, some 0, some 5⟩, true, ⟨none, none, none⟩, false, false, ⟨0, 0, 0⟩, true,
    ⟨some 0, some 0, some 5⟩, ⟨some 0, some 0, some 5⟩⟩, rfl, rfl, rfl, rfl⟩

end Avoidance
