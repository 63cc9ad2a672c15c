import Verif.NodeRun
import Verif.RunSpeedProps
import Verif.RunDefinedProps
import Verif.SeenObstacleProps
import Verif.NodeletProps
import Verif.WpGenSpeed
import Verif.WpGenLaw

/-!
# The local planner nodelet end to end: what a setpoint is made from (C91)
-/

namespace Avoidance

/-! ## Specification: the newest of each kind of event in a history -/

/-- The last event of a kind, or a default. -/
def newest {A : Type} (pick : NodeEvent → Option A) (d : A) (es : List NodeEvent) : A := ((es.filterMap pick).getLast?).getD d

/-- The last pose received. -/
def newestPose (u : Uninit) : List NodeEvent → V3 ℝ × Quat ℝ :=
  newest (fun e => match e with | .pose p q => some (p, q) | _ => none) (u.position, u.orientation)
/-- The last velocity received. -/
def newestVelocity (u : Uninit) : List NodeEvent → V3 ℝ :=
  newest (fun e => match e with | .velocity v => some v | _ => none) u.velocity
/-- The last vehicle state received: armed, flight mode. -/
def newestState : List NodeEvent → Bool × NavState :=
  newest (fun e => match e with | .state a m => some (a, navStateOf m) | _ => none) (false, .none)
/-- The last autopilot parameters received. -/
def newestPx4 (l : Launch) : List NodeEvent → LpPx4 :=
  newest (fun e => match e with | .px4 p => some p | _ => none) l.px4
/-- The last mission speed received. -/
def newestMission : List NodeEvent → Flt ℝ :=
  newest (fun e => match e with | .mission v => some v | _ => none) .nan
/-- The last configuration received. -/
def newestConfig : List NodeEvent → Option LpConfig :=
  newest (fun e => match e with | .config c _ _ _ => some (some c) | _ => none) none
/-- The last smoothing parameters received. -/
def newestSmoothing : List NodeEvent → ℝ × ℝ :=
  newest (fun e => match e with | .config _ a b _ => some (a, b) | _ => none) (10, 3)
/-- The time of the last plan handed over (0 if there was none). -/
def newestPlan : List NodeEvent → ℝ :=
  newest (fun e => match e with | .planEnd t => some t | _ => none) 0
/-- The number of poses received. -/
def posesIn (es : List NodeEvent) : ℕ := es.countP fun e => match e with | .pose _ _ => true | _ => false

/-- Events that are goals. -/
def IsGoal : NodeEvent → Prop
  | .clicked _ => True
  | .topic _ => True
  | .fcu _ => True
  | _ => False

/-- The event is the hand-over of a plan. -/
def IsPlanEnd : NodeEvent → Prop
  | .planEnd _ => True
  | _ => False

/-! ## Proofs -/

variable {Q : PriorityQueue (Candidate ℝ) Candidate.lt}

theorem newest_snoc_some {A : Type} (pick : NodeEvent → Option A) (d : A) (es : List NodeEvent) (e : NodeEvent) (a : A)
    (h : pick e = some a) : newest pick d (es ++ [e]) = a := by
  unfold newest
  rw [List.filterMap_append]
  simp [h]

theorem newest_snoc_none {A : Type} (pick : NodeEvent → Option A) (d : A) (es : List NodeEvent) (e : NodeEvent)
    (h : pick e = none) : newest pick d (es ++ [e]) = newest pick d es := by
  unfold newest
  rw [List.filterMap_append]
  simp [h]

/-- What a round of the command loop keeps. -/
theorem sendStep_keeps (s : NodeSt) (now : ℝ) : let r := sendStep s now
    r.position = s.position ∧ r.velocity = s.velocity ∧ r.orientation = s.orientation ∧ r.armed = s.armed ∧ r.nav = s.nav ∧
    r.goals = s.goals ∧ r.px4 = s.px4 ∧ r.mission = s.mission ∧ r.planner = s.planner ∧ r.calls = s.calls ∧
    r.start_time = s.start_time ∧ r.last_wp_time = s.last_wp_time ∧ r.planning = s.planning ∧ r.cmd = none ∧
    r.position_received = false ∧ r.scans = s.scans ∧ r.timeout = s.timeout := by
  unfold sendStep
  dsimp only
  split_ifs <;> simp

/-- When a round of the command loop sends. -/
theorem sendStep_active (s : NodeSt) (now : ℝ) :
    ((now - s.last_wp_time ≤ 1 / 2 ∨ now - s.start_time ≤ 5) → (sendStep s now).gen = wgCycle s.gen (inputOf s false) now ∧
      (sendStep s now).sent = s.sent ++ [messageOf (wgCycle s.gen (inputOf s false) now).2 now] ∧ (sendStep s now).status = .ACTIVE) ∧
    (¬ (now - s.last_wp_time ≤ 1 / 2 ∨ now - s.start_time ≤ 5) → (sendStep s now).gen = s.gen ∧
      (sendStep s now).sent = s.sent ∧ (sendStep s now).status ≠ .ACTIVE) := by
  unfold sendStep checkFailsafe
  dsimp only
  constructor
  · intro h
    have h1 : ¬ (now - s.last_wp_time > 15 ∧ now - s.start_time > 15) := by
      rintro ⟨a, b⟩; rcases h with h | h <;> linarith
    have h2 : ¬ (now - s.last_wp_time > 1 / 2 ∧ now - s.start_time > 5) := by
      rintro ⟨a, b⟩; rcases h with h | h <;> linarith
    rw [if_neg h1, if_neg h2]
    simp [inputOf]
  · intro h
    push Not at h
    by_cases h1 : now - s.last_wp_time > 15 ∧ now - s.start_time > 15
    · rw [if_pos h1]; simp
    · have h2 : now - s.last_wp_time > 1 / 2 ∧ now - s.start_time > 5 := h
      rw [if_neg h1, if_pos h2]; simp

/-- What the generator's cycle keeps of its parameters. -/
theorem wgCycle_params (x : PlannerState × WgState) (i : WgIn) (now : ℝ) :
    (wgCycle x i now).2.planner = x.2.planner ∧ (wgCycle x i now).2.fovs = x.2.fovs ∧
    (wgCycle x i now).2.smoothing_speed_xy = x.2.smoothing_speed_xy ∧ (wgCycle x i now).2.smoothing_speed_z = x.2.smoothing_speed_z := by
  obtain ⟨al, re, sc, ho⟩ := wgCycle_out x i now
  have f := getPathMsg_frame x.1 (targetOf x.1 (wgStart x.2 i now))
  obtain ⟨a1, -, -, -, -, -, -, -, -, -, -, -, -, -, -, -, -, -, -, -, a21, a22, a23, -⟩ := wgStart_spec x.2 i now
  obtain ⟨-, -, m3, m4, -⟩ := targetOf_more x.1 (wgStart x.2 i now)
  obtain ⟨-, -, m5, m6, -⟩ := targetOf_filter x.1 (wgStart x.2 i now)
  rw [ho]
  dsimp only
  rw [f.planner, f.fovs, f.sxy, f.sz, m3, m4, m5, m6, a1, a23, a21, a22]
  exact ⟨rfl, rfl, rfl, rfl⟩

/-- What the node knows after a history. -/
structure NodeKnows (Q : PriorityQueue (Candidate ℝ) Candidate.lt) (u : Uninit) (l : Launch) (es : List NodeEvent) (s : NodeSt) : Prop where
  pose : (s.position, s.orientation) = newestPose u es
  velocity : s.velocity = newestVelocity u es
  state : (s.armed, s.nav) = newestState es
  px4 : s.px4 = newestPx4 l es
  mission : s.mission = newestMission es
  smoothing : (s.gen.2.smoothing_speed_xy, s.gen.2.smoothing_speed_z) = newestSmoothing es
  start : s.start_time = l.start
  plan : s.last_wp_time = newestPlan es
  calls : loopM (lpStep Q) lpInit s.calls = some s.planner
  applied : GoalApplied s.calls
  config : lastConfig s.calls = newestConfig es
  goal : s.goals.goal = s.goals.goal.val.some'
  prev : s.goals.prev_goal = s.goals.prev_goal.val.some'
  poses : s.sent.length + (if s.position_received then 1 else 0) ≤ posesIn es

theorem some'_val (v : V3 ℝ) : v.some' = v.some'.val.some' := rfl

theorem updateCalls_config (cs : List LpEvent) (s : NodeSt) (frame : List (List (V3 (Flt ℝ)) × FOV ℝ)) (now : ℝ) :
    lastConfig (cs ++ (updateCalls s frame ++ [LpEvent.run now])) = lastConfig cs := by
  unfold lastConfig
  rw [List.filterMap_append]
  have key : List.filterMap (fun e => match e with | LpEvent.config c => some c | _ => none) (updateCalls s frame ++ [LpEvent.run now]) = [] := by
    rw [List.filterMap_eq_nil_iff]
    intro e he
    unfold updateCalls at he
    simp only [List.mem_append, List.mem_map, List.mem_cons, List.not_mem_nil, or_false] at he
    rcases he with ((((rfl | ⟨x, -, rfl⟩) | rfl) | he) | rfl | rfl) | rfl
    all_goals first | rfl | skip
    split_ifs at he with hg
    · simp only [List.mem_cons, List.not_mem_nil, or_false] at he
      rcases he with rfl | rfl <;> rfl
    · cases he
  have key' : ∀ a b : List LpConfig, b = [] → (a ++ b).getLast? = a.getLast? := by rintro a b rfl; rw [List.append_nil]
  exact key' _ _ key

theorem fcu_finite (g : GoalState ℝ) (m : TrajectoryMsg ℝ) (h1 : g.goal = g.goal.val.some') (h2 : g.prev_goal = g.prev_goal.val.some') :
    (fcuInputGoal g m).goal = (fcuInputGoal g m).goal.val.some' ∧ (fcuInputGoal g m).prev_goal = (fcuInputGoal g m).prev_goal.val.some' := by
  unfold fcuInputGoal fcuSecond fcuFirst
  split_ifs <;> first
      | exact ⟨some'_val _, h1⟩ | exact ⟨some'_val _, h2⟩ | exact ⟨h1, h2⟩

theorem topic_finite (g : GoalState ℝ) (ms : List (V3 ℝ)) (h1 : g.goal = g.goal.val.some') (h2 : g.prev_goal = g.prev_goal.val.some') :
    (updateGoal g ms).goal = (updateGoal g ms).goal.val.some' ∧ (updateGoal g ms).prev_goal = (updateGoal g ms).prev_goal.val.some' := by
  unfold updateGoal
  rcases g.accept_topic with _ | _ <;> rcases ms with _ | ⟨m, ms⟩
  · exact ⟨h1, h2⟩
  · exact ⟨h1, h2⟩
  · exact ⟨h1, h2⟩
  · exact ⟨some'_val _, h1⟩

theorem posesIn_snoc (es : List NodeEvent) (e : NodeEvent) : posesIn (es ++ [e]) = posesIn es + (match e with | .pose _ _ => 1 | _ => 0) := by
  unfold posesIn
  rw [List.countP_append]
  cases e <;> simp

theorem newestPose_snoc (u : Uninit) (es : List NodeEvent) (e : NodeEvent) : newestPose u (es ++ [e]) =
    (match e with | .pose p q => (p, q) | _ => newestPose u es) := by
  cases e <;> first | exact newest_snoc_some _ _ _ _ _ rfl | exact newest_snoc_none _ _ _ _ rfl

theorem newestVelocity_snoc (u : Uninit) (es : List NodeEvent) (e : NodeEvent) : newestVelocity u (es ++ [e]) =
    (match e with | .velocity v => v | _ => newestVelocity u es) := by
  cases e <;> first | exact newest_snoc_some _ _ _ _ _ rfl | exact newest_snoc_none _ _ _ _ rfl

theorem newestState_snoc (es : List NodeEvent) (e : NodeEvent) : newestState (es ++ [e]) =
    (match e with | .state a m => (a, navStateOf m) | _ => newestState es) := by
  cases e <;> first | exact newest_snoc_some _ _ _ _ _ rfl | exact newest_snoc_none _ _ _ _ rfl

theorem newestPx4_snoc (l : Launch) (es : List NodeEvent) (e : NodeEvent) : newestPx4 l (es ++ [e]) =
    (match e with | .px4 p => p | _ => newestPx4 l es) := by
  cases e <;> first | exact newest_snoc_some _ _ _ _ _ rfl | exact newest_snoc_none _ _ _ _ rfl

theorem newestMission_snoc (es : List NodeEvent) (e : NodeEvent) : newestMission (es ++ [e]) =
    (match e with | .mission v => v | _ => newestMission es) := by
  cases e <;> first | exact newest_snoc_some _ _ _ _ _ rfl | exact newest_snoc_none _ _ _ _ rfl

theorem newestConfig_snoc (es : List NodeEvent) (e : NodeEvent) : newestConfig (es ++ [e]) =
    (match e with | .config c _ _ _ => some c | _ => newestConfig es) := by
  cases e <;> first | exact newest_snoc_some _ _ _ _ _ rfl | exact newest_snoc_none _ _ _ _ rfl

theorem newestSmoothing_snoc (es : List NodeEvent) (e : NodeEvent) : newestSmoothing (es ++ [e]) =
    (match e with | .config _ a b _ => (a, b) | _ => newestSmoothing es) := by
  cases e <;> first | exact newest_snoc_some _ _ _ _ _ rfl | exact newest_snoc_none _ _ _ _ rfl

theorem newestPlan_snoc (es : List NodeEvent) (e : NodeEvent) : newestPlan (es ++ [e]) =
    (match e with | .planEnd t => t | _ => newestPlan es) := by
  cases e <;> first | exact newest_snoc_some _ _ _ _ _ rfl | exact newest_snoc_none _ _ _ _ rfl

theorem nodeKnows (u : Uninit) (l : Launch) (es : List NodeEvent) : ∀ s, loopM (nodeStep Q) (nodeInit u l) es = some s →
    NodeKnows Q u l es s := by
  induction es using List.reverseRecOn with
  | nil =>
    intro s h
    obtain rfl := Option.some.inj h
    exact ⟨rfl, rfl, rfl, rfl, rfl, rfl, rfl, rfl, rfl, ⟨_, List.mem_singleton_self _, Or.inl rfl⟩, rfl, rfl, rfl, le_refl _⟩
  | append_singleton es e ih =>
    intro s' h
    obtain ⟨s, h1, h2⟩ := loopM_snoc h
    have k := ih s h1
    have kp := k.poses
    cases e with
    | pose p q =>
      obtain rfl := Option.some.inj h2
      constructor <;> (try simp only [newestPose_snoc, newestVelocity_snoc, newestState_snoc, newestPx4_snoc, newestMission_snoc, newestConfig_snoc,
        newestSmoothing_snoc, newestPlan_snoc, posesIn_snoc]) <;> first
        | exact k.pose | exact k.velocity | exact k.state | exact k.px4 | exact k.mission | exact k.smoothing | exact k.start | exact k.plan
        | exact k.calls | exact k.applied | exact k.config | exact k.goal | exact k.prev | exact k.poses | skip
      simp only [if_true]
      split_ifs at kp <;> omega
    | velocity v =>
      obtain rfl := Option.some.inj h2
      constructor <;> (try simp only [newestPose_snoc, newestVelocity_snoc, newestState_snoc, newestPx4_snoc, newestMission_snoc, newestConfig_snoc,
        newestSmoothing_snoc, newestPlan_snoc, posesIn_snoc]) <;> first
        | exact k.pose | exact k.velocity | exact k.state | exact k.px4 | exact k.mission | exact k.smoothing | exact k.start | exact k.plan
        | exact k.calls | exact k.applied | exact k.config | exact k.goal | exact k.prev | exact k.poses
    | state a m =>
      obtain rfl := Option.some.inj h2
      constructor <;> (try simp only [newestPose_snoc, newestVelocity_snoc, newestState_snoc, newestPx4_snoc, newestMission_snoc, newestConfig_snoc,
        newestSmoothing_snoc, newestPlan_snoc, posesIn_snoc]) <;> first
        | exact k.pose | exact k.velocity | exact k.state | exact k.px4 | exact k.mission | exact k.smoothing | exact k.start | exact k.plan
        | exact k.calls | exact k.applied | exact k.config | exact k.goal | exact k.prev | exact k.poses
    | clicked p =>
      obtain rfl := Option.some.inj h2
      constructor <;> (try simp only [newestPose_snoc, newestVelocity_snoc, newestState_snoc, newestPx4_snoc, newestMission_snoc, newestConfig_snoc,
        newestSmoothing_snoc, newestPlan_snoc, posesIn_snoc]) <;> first
        | exact k.pose | exact k.velocity | exact k.state | exact k.px4 | exact k.mission | exact k.smoothing | exact k.start | exact k.plan
        | exact k.calls | exact k.applied | exact k.config | exact k.poses | exact k.goal | exact some'_val ⟨p.x, p.y, s.planner.goal.z⟩
    | topic ms =>
      obtain rfl := Option.some.inj h2
      obtain ⟨t1, t2⟩ := topic_finite s.goals ms k.goal k.prev
      constructor <;> (try simp only [newestPose_snoc, newestVelocity_snoc, newestState_snoc, newestPx4_snoc, newestMission_snoc, newestConfig_snoc,
        newestSmoothing_snoc, newestPlan_snoc, posesIn_snoc]) <;> first
        | exact k.pose | exact k.velocity | exact k.state | exact k.px4 | exact k.mission | exact k.smoothing | exact k.start | exact k.plan
        | exact k.calls | exact k.applied | exact k.config | exact k.poses | exact t1 | exact t2
    | fcu m =>
      obtain rfl := Option.some.inj h2
      obtain ⟨t1, t2⟩ := fcu_finite s.goals m k.goal k.prev
      constructor <;> (try simp only [newestPose_snoc, newestVelocity_snoc, newestState_snoc, newestPx4_snoc, newestMission_snoc, newestConfig_snoc,
        newestSmoothing_snoc, newestPlan_snoc, posesIn_snoc]) <;> first
        | exact k.pose | exact k.velocity | exact k.state | exact k.px4 | exact k.mission | exact k.smoothing | exact k.start | exact k.plan
        | exact k.calls | exact k.applied | exact k.config | exact k.poses | exact t1 | exact t2
    | px4 p =>
      obtain rfl := Option.some.inj h2
      constructor <;> (try simp only [newestPose_snoc, newestVelocity_snoc, newestState_snoc, newestPx4_snoc, newestMission_snoc, newestConfig_snoc,
        newestSmoothing_snoc, newestPlan_snoc, posesIn_snoc]) <;> first
        | exact k.pose | exact k.velocity | exact k.state | exact k.px4 | exact k.mission | exact k.smoothing | exact k.start | exact k.plan
        | exact k.calls | exact k.applied | exact k.config | exact k.goal | exact k.prev | exact k.poses
    | mission v =>
      obtain rfl := Option.some.inj h2
      constructor <;> (try simp only [newestPose_snoc, newestVelocity_snoc, newestState_snoc, newestPx4_snoc, newestMission_snoc, newestConfig_snoc,
        newestSmoothing_snoc, newestPlan_snoc, posesIn_snoc]) <;> first
        | exact k.pose | exact k.velocity | exact k.state | exact k.px4 | exact k.mission | exact k.smoothing | exact k.start | exact k.plan
        | exact k.calls | exact k.applied | exact k.config | exact k.goal | exact k.prev | exact k.poses
    | config c sxy sz t =>
      unfold nodeStep at h2
      dsimp only at h2
      split_ifs at h2 with hp
      obtain rfl := Option.some.inj h2
      have e1 : loopM (lpStep Q) lpInit (s.calls ++ [LpEvent.config c]) = some (s.planner.configure c) := by
        rw [loopM_append', k.calls]; rfl
      have e2 : GoalApplied (s.calls ++ [LpEvent.config c]) := by
        obtain ⟨e, he, h⟩ := k.applied
        exact ⟨e, List.mem_append_left _ he, h⟩
      have e3 : lastConfig (s.calls ++ [LpEvent.config c]) = some c := by
        unfold lastConfig
        rw [List.filterMap_append]
        simp
      constructor <;> (try simp only [newestPose_snoc, newestVelocity_snoc, newestState_snoc, newestPx4_snoc, newestMission_snoc, newestConfig_snoc,
        newestSmoothing_snoc, newestPlan_snoc, posesIn_snoc]) <;> first
        | exact k.pose | exact k.velocity | exact k.state | exact k.px4 | exact k.mission | exact k.smoothing | exact k.start | exact k.plan
        | exact e1 | exact e2 | exact e3 | exact k.goal | exact k.prev | exact k.poses
    | planStart frame now =>
      unfold nodeStep at h2
      dsimp only at h2
      split_ifs at h2 with hp
      rw [Option.map_eq_some_iff] at h2
      obtain ⟨pl, h3, rfl⟩ := h2
      have e1 : loopM (lpStep Q) lpInit (s.calls ++ (updateCalls s frame ++ [LpEvent.run now])) = some pl := by
        rw [loopM_append', k.calls]; exact h3
      have e2 : GoalApplied (s.calls ++ (updateCalls s frame ++ [LpEvent.run now])) := by
        obtain ⟨e, he, h⟩ := k.applied
        exact ⟨e, List.mem_append_left _ he, h⟩
      have e3 : lastConfig (s.calls ++ (updateCalls s frame ++ [LpEvent.run now])) = newestConfig es := by
        rw [← k.config]
        exact updateCalls_config _ _ _ _
      constructor <;> (try simp only [newestPose_snoc, newestVelocity_snoc, newestState_snoc, newestPx4_snoc, newestMission_snoc, newestConfig_snoc,
        newestSmoothing_snoc, newestPlan_snoc, posesIn_snoc]) <;> first
        | exact k.pose | exact k.velocity | exact k.state | exact k.px4 | exact k.mission | exact k.smoothing | exact k.start | exact k.plan
        | exact e1 | exact e2 | exact e3 | exact k.goal | exact k.prev | exact k.poses
    | planEnd now =>
      unfold nodeStep at h2
      dsimp only at h2
      split_ifs at h2 with hp
      obtain rfl := Option.some.inj h2
      constructor <;> (try simp only [newestPose_snoc, newestVelocity_snoc, newestState_snoc, newestPx4_snoc, newestMission_snoc, newestConfig_snoc,
        newestSmoothing_snoc, newestPlan_snoc, posesIn_snoc]) <;> first
        | exact k.pose | exact k.velocity | exact k.state | exact k.px4 | exact k.mission | exact k.smoothing | exact k.start | exact k.plan
        | exact k.calls | exact k.applied | exact k.config | exact k.goal | exact k.prev | exact k.poses
    | timer now =>
      unfold nodeStep at h2
      dsimp only at h2
      split_ifs at h2 with hp
      obtain rfl := Option.some.inj h2
      constructor <;> (try simp only [newestPose_snoc, newestVelocity_snoc, newestState_snoc, newestPx4_snoc, newestMission_snoc, newestConfig_snoc,
        newestSmoothing_snoc, newestPlan_snoc, posesIn_snoc]) <;> first
        | exact k.pose | exact k.velocity | exact k.state | exact k.px4 | exact k.mission | exact k.smoothing | exact k.start | exact k.plan
        | exact k.calls | exact k.applied | exact k.config | exact k.goal | exact k.prev | exact k.poses
    | poll now =>
      unfold nodeStep at h2
      dsimp only at h2
      rw [Option.bind_eq_some_iff] at h2
      obtain ⟨t0, -, h2⟩ := h2
      split_ifs at h2 with hp hq <;> obtain rfl := Option.some.inj h2
      all_goals
        constructor <;> (try simp only [newestPose_snoc, newestVelocity_snoc, newestState_snoc, newestPx4_snoc, newestMission_snoc, newestConfig_snoc,
          newestSmoothing_snoc, newestPlan_snoc, posesIn_snoc]) <;> first
          | exact k.pose | exact k.velocity | exact k.state | exact k.px4 | exact k.mission | exact k.smoothing | exact k.start | exact k.plan
          | exact k.calls | exact k.applied | exact k.config | exact k.goal | exact k.prev | exact k.poses
    | send now =>
      unfold nodeStep at h2
      dsimp only at h2
      split_ifs at h2 with hp
      obtain rfl := Option.some.inj h2
      obtain ⟨q1, q2, q3, q4, q5, q6, q7, q8, q9, q10, q11, q12, q13, q14, q15, q16, q17⟩ := sendStep_keeps s now
      have hgen : (sendStep s now).gen.2.smoothing_speed_xy = s.gen.2.smoothing_speed_xy ∧
          (sendStep s now).gen.2.smoothing_speed_z = s.gen.2.smoothing_speed_z ∧ (sendStep s now).sent.length ≤ s.sent.length + 1 := by
        obtain ⟨a1, a2⟩ := sendStep_active s now
        by_cases ha : now - s.last_wp_time ≤ 1 / 2 ∨ now - s.start_time ≤ 5
        · obtain ⟨b1, b2, -⟩ := a1 ha
          obtain ⟨-, -, c3, c4⟩ := wgCycle_params s.gen (inputOf s false) now
          rw [b1, b2, c3, c4]
          exact ⟨rfl, rfl, by simp⟩
        · obtain ⟨b1, b2, -⟩ := a2 ha
          rw [b1, b2]
          exact ⟨rfl, rfl, by simp⟩
      rw [if_pos hp.2] at kp
      constructor <;> (try simp only [newestPose_snoc, newestVelocity_snoc, newestState_snoc, newestPx4_snoc, newestMission_snoc, newestConfig_snoc,
        newestSmoothing_snoc, newestPlan_snoc, posesIn_snoc, q1, q2, q3, q4, q5, q6, q7, q8, q9, q10, q11, q12, hgen.1, hgen.2.1]) <;> first
        | exact k.pose | exact k.velocity | exact k.state | exact k.px4 | exact k.mission | exact k.smoothing | exact k.start | exact k.plan
        | exact k.calls | exact k.applied | exact k.config | exact k.goal | exact k.prev | skip
      rw [q15]
      simp only [Bool.false_eq_true, if_false]
      have := hgen.2.2
      omega

/-! ## C91 -/

/-- The data the waypoint generator is given after a history: always the newest of each kind; never a request to hover. -/
noncomputable def newestInput (u : Uninit) (es : List NodeEvent) (goal : V3 ℝ) (land takeoff : Bool) (desired : V3 (Option ℝ)) : WgIn where
  position := (newestPose u es).1
  velocity := newestVelocity u es
  goal := goal
  yaw := getYawFromQuaternion (newestPose u es).2 * (Real.pi / 180)
  pitch := getPitchFromQuaternion (newestPose u es).2
  nav := (newestState es).2
  is_land := land
  is_takeoff := takeoff
  desired_vel := desired
  stay := false
  airborne := (newestState es).1 && decide ((newestState es).2 ≠ .none)

theorem inputOf_newest {u : Uninit} {l : Launch} {es : List NodeEvent} {s : NodeSt} (k : NodeKnows Q u l es s) :
    inputOf s false = newestInput u es s.goals.goal.val s.goals.is_land s.goals.is_takeoff s.goals.desired_velocity := by
  unfold inputOf newestInput
  rw [← k.pose, ← k.velocity, ← k.state]
  rfl

/-- **C91.** After any history, a round of the command loop sends a setpoint exactly if the last plan was handed over at most half a second
ago or the node was started at most 5 s ago; the setpoint is then computed by one cycle of the waypoint generator (C37 – C39) from the
newest pose, velocity and vehicle state received and the goal in force, at the time of the round. -/
theorem C91_message (u : Uninit) (l : Launch) (es : List NodeEvent) (s s' : NodeSt) (now : ℝ)
    (h : loopM (nodeStep Q) (nodeInit u l) es = some s) (hs : nodeStep Q s (.send now) = some s') :
    let i := newestInput u es s.goals.goal.val s.goals.is_land s.goals.is_takeoff s.goals.desired_velocity
    let o := wgCycle s.gen i now
    ((now - newestPlan es ≤ 1 / 2 ∨ now - l.start ≤ 5) → s'.gen = o ∧
      s'.sent = s.sent ++ [⟨now, o.2.out_position, o.2.setpoint_yaw, o.2.out_linear_velocity, o.2.out_goto, o.2.out_adapted⟩]) ∧
    (¬ (now - newestPlan es ≤ 1 / 2 ∨ now - l.start ≤ 5) → s'.gen = s.gen ∧ s'.sent = s.sent) := by
  have k := nodeKnows u l es s h
  unfold nodeStep at hs
  dsimp only at hs
  split_ifs at hs with hp
  obtain rfl := Option.some.inj hs
  obtain ⟨a1, a2⟩ := sendStep_active s now
  rw [k.plan, k.start, inputOf_newest k] at a1
  rw [k.plan, k.start] at a2
  exact ⟨fun hc => ⟨(a1 hc).1, (a1 hc).2.1⟩, fun hc => ⟨(a2 hc).1, (a2 hc).2.1⟩⟩

/-- **C91, nothing else sends.** No other event sends a setpoint. -/
theorem C91_only_the_command_loop_sends (s s' : NodeSt) (e : NodeEvent) (he : ∀ t, e ≠ .send t) (h : nodeStep Q s e = some s') :
    s'.sent = s.sent := by
  cases e with
  | send t => exact absurd rfl (he t)
  | config c a b t =>
    unfold nodeStep at h
    dsimp only at h
    split_ifs at h
    obtain rfl := Option.some.inj h
    rfl
  | planStart f t =>
    unfold nodeStep at h
    dsimp only at h
    split_ifs at h
    rw [Option.map_eq_some_iff] at h
    obtain ⟨pl, -, rfl⟩ := h
    rfl
  | planEnd t =>
    unfold nodeStep at h
    dsimp only at h
    split_ifs at h
    obtain rfl := Option.some.inj h
    rfl
  | timer t =>
    unfold nodeStep at h
    dsimp only at h
    split_ifs at h
    obtain rfl := Option.some.inj h
    rfl
  | poll t =>
    unfold nodeStep at h
    dsimp only at h
    rw [Option.bind_eq_some_iff] at h
    obtain ⟨t0, -, h⟩ := h
    split_ifs at h <;> obtain rfl := Option.some.inj h <;> rfl
  | _ => obtain rfl := Option.some.inj h; rfl

/-- **C91, one setpoint per pose.** At most as many setpoints are sent as poses are received. -/
theorem C91_one_per_pose (u : Uninit) (l : Launch) (es : List NodeEvent) (s : NodeSt)
    (h : loopM (nodeStep Q) (nodeInit u l) es = some s) : s.sent.length ≤ posesIn es :=
  le_trans (Nat.le_add_right _ _) (nodeKnows u l es s h).poses

/-- While the worker plans, nothing touches the planner. -/
theorem planning_since (u : Uninit) (l : Launch) (es : List NodeEvent) : ∀ s, loopM (nodeStep Q) (nodeInit u l) es = some s →
    s.planning = true → ∃ pre frame t0 mid s0, es = pre ++ .planStart frame t0 :: mid ∧ frame ≠ [] ∧
      (∀ e ∈ mid, ¬ IsPlanEnd e ∧ ∀ f t, e ≠ .planStart f t) ∧ loopM (nodeStep Q) (nodeInit u l) pre = some s0 ∧
      loopM (lpStep Q) s0.planner (updateCalls s0 frame ++ [.run t0]) = some s.planner := by
  induction es using List.reverseRecOn with
  | nil =>
    intro s h hp
    obtain rfl := Option.some.inj h
    cases hp
  | append_singleton es e ih =>
    intro s' h hp
    obtain ⟨s, h1, h2⟩ := loopM_snoc h
    have keep : ¬ IsPlanEnd e → (∀ f t, e ≠ .planStart f t) → s.planning = true → s'.planner = s.planner →
        ∃ pre frame t0 mid s0, es ++ [e] = pre ++ .planStart frame t0 :: mid ∧ frame ≠ [] ∧
          (∀ e ∈ mid, ¬ IsPlanEnd e ∧ ∀ f t, e ≠ .planStart f t) ∧ loopM (nodeStep Q) (nodeInit u l) pre = some s0 ∧
          loopM (lpStep Q) s0.planner (updateCalls s0 frame ++ [.run t0]) = some s'.planner := by
      intro e1 e2 e3 e4
      obtain ⟨pre, frame, t0, mid, s0, g1, g2, g3, g4, g5⟩ := ih s h1 e3
      refine ⟨pre, frame, t0, mid ++ [e], s0, by rw [g1]; simp, g2, ?_, g4, by rw [e4]; exact g5⟩
      intro x hx
      rcases List.mem_append.1 hx with hx | hx
      · exact g3 x hx
      · rw [List.mem_singleton] at hx
        subst hx
        exact ⟨e1, e2⟩
    cases e with
    | planStart f t =>
      unfold nodeStep at h2
      dsimp only at h2
      split_ifs at h2 with hq
      rw [Option.map_eq_some_iff] at h2
      obtain ⟨pl, h3, rfl⟩ := h2
      push Not at hq
      exact ⟨es, f, t, [], s, rfl, hq.2, by simp, h1, h3⟩
    | planEnd t =>
      unfold nodeStep at h2
      dsimp only at h2
      split_ifs at h2
      obtain rfl := Option.some.inj h2
      cases hp
    | config c a b t =>
      unfold nodeStep at h2
      dsimp only at h2
      split_ifs at h2 with hq
      obtain rfl := Option.some.inj h2
      exact absurd hp hq
    | timer t =>
      unfold nodeStep at h2
      dsimp only at h2
      split_ifs at h2
      obtain rfl := Option.some.inj h2
      exact keep (fun h => h) (fun _ _ h => by cases h) hp rfl
    | poll t =>
      unfold nodeStep at h2
      dsimp only at h2
      rw [Option.bind_eq_some_iff] at h2
      obtain ⟨t0, -, h2⟩ := h2
      split_ifs at h2 <;> obtain rfl := Option.some.inj h2 <;> exact keep (fun h => h) (fun _ _ h => by cases h) hp rfl
    | send t =>
      unfold nodeStep at h2
      dsimp only at h2
      split_ifs at h2
      obtain rfl := Option.some.inj h2
      obtain ⟨-, -, -, -, -, -, -, -, q9, -, -, -, q13, -⟩ := sendStep_keeps s t
      exact keep (fun h => h) (fun _ _ h => by cases h) (q13 ▸ hp) q9
    | _ =>
      obtain rfl := Option.some.inj h2
      exact keep (fun h => h) (fun _ _ h => by cases h) hp rfl

/-- Between hand-overs the generator keeps the plan it has. -/
theorem gen_planner_step {s s' : NodeSt} {e : NodeEvent} (he : ¬ IsPlanEnd e) (h : nodeStep Q s e = some s') :
    s'.gen.2.planner = s.gen.2.planner := by
  cases e with
  | planEnd t => exact absurd trivial he
  | config c a b t =>
    unfold nodeStep at h
    dsimp only at h
    split_ifs at h
    obtain rfl := Option.some.inj h
    rfl
  | planStart f t =>
    unfold nodeStep at h
    dsimp only at h
    split_ifs at h
    rw [Option.map_eq_some_iff] at h
    obtain ⟨pl, -, rfl⟩ := h
    rfl
  | timer t =>
    unfold nodeStep at h
    dsimp only at h
    split_ifs at h
    obtain rfl := Option.some.inj h
    rfl
  | poll t =>
    unfold nodeStep at h
    dsimp only at h
    rw [Option.bind_eq_some_iff] at h
    obtain ⟨t0, -, h⟩ := h
    split_ifs at h <;> obtain rfl := Option.some.inj h <;> rfl
  | send t =>
    unfold nodeStep at h
    dsimp only at h
    split_ifs at h
    obtain rfl := Option.some.inj h
    obtain ⟨a1, a2⟩ := sendStep_active s t
    by_cases ha : t - s.last_wp_time ≤ 1 / 2 ∨ t - s.start_time ≤ 5
    · rw [(a1 ha).1, (wgCycle_params _ _ _).1]
    · rw [(a2 ha).1]
  | _ => obtain rfl := Option.some.inj h; rfl

theorem gen_planner_run (es : List NodeEvent) : ∀ s s', loopM (nodeStep Q) s es = some s' → (∀ e ∈ es, ¬ IsPlanEnd e) →
    s'.gen.2.planner = s.gen.2.planner := by
  induction es with
  | nil => intro s s' h _; obtain rfl := Option.some.inj h; rfl
  | cons e es ih =>
    intro s s' h he
    have h : (nodeStep Q s e).bind (fun t => loopM (nodeStep Q) t es) = some s' := h
    rw [Option.bind_eq_some_iff] at h
    obtain ⟨t, h1, h2⟩ := h
    rw [ih t s' h2 (fun x hx => he x (List.mem_cons_of_mem _ hx)), gen_planner_step (he e List.mem_cons_self) h1]

/-- What the planner is called with for one plan. -/
noncomputable def planCalls (u : Uninit) (l : Launch) (before : List NodeEvent) (frame : List (List (V3 (Flt ℝ)) × FOV ℝ)) (now : ℝ)
    (newGoal : Option (V3 ℝ × V3 ℝ)) : List LpEvent :=
  [.clouds (frame.map (·.1))] ++ frame.zipIdx.map (fun x => .fov x.2 x.1.2) ++
  [.state (newestPose u before).1 (newestVelocity u before) (newestPose u before).2] ++
  (match newGoal with | some (g, p) => [.goal g, .prevGoal p] | none => []) ++
  [.px4 (newestPx4 l before), .mission (newestMission before), .run now]

/-- **C91, the plan a setpoint rests on.** Before the first hand-over there is no plan (and the cruise speed is whatever the memory
held). Afterwards the generator follows the output of the last plan handed over; that plan was made by one run of the planner on the
newest pose, velocity, parameters and mission speed at its start, a cloud of every camera, and the goal if there was a new one. -/
theorem C91_plan_used (u : Uninit) (l : Launch) (es : List NodeEvent) (s : NodeSt)
    (h : loopM (nodeStep Q) (nodeInit u l) es = some s) :
    ((∀ e ∈ es, ¬ IsPlanEnd e) → s.gen.2.planner = ⟨[], 0, u.cruise_velocity⟩) ∧
    (∀ before t after, es = before ++ .planEnd t :: after → (∀ e ∈ after, ¬ IsPlanEnd e) →
      ∃ pre frame t0 mid s0 p, before = pre ++ .planStart frame t0 :: mid ∧ frame ≠ [] ∧
        (∀ e ∈ mid, ¬ IsPlanEnd e ∧ ∀ f t, e ≠ .planStart f t) ∧ loopM (nodeStep Q) (nodeInit u l) pre = some s0 ∧
        loopM (lpStep Q) s0.planner (planCalls u l pre frame t0
          (if s0.goals.new_goal then some (s0.goals.goal.val, s0.goals.prev_goal.val) else none)) = some p ∧
        s.gen.2.planner = ⟨p.output.2.2, p.output.2.1, some p.output.1⟩) := by
  constructor
  · intro he
    rw [gen_planner_run es _ _ h he]
    rfl
  · intro before t after e hafter
    rw [e, show before ++ NodeEvent.planEnd t :: after = (before ++ [.planEnd t]) ++ after by simp, loopM_append',
      Option.bind_eq_some_iff] at h
    obtain ⟨s2, h2, h3⟩ := h
    obtain ⟨s1, h1, h4⟩ := loopM_snoc h2
    unfold nodeStep at h4
    dsimp only at h4
    split_ifs at h4 with hp
    obtain rfl := Option.some.inj h4
    obtain ⟨pre, frame, t0, mid, s0, g1, g2, g3, g4, g5⟩ := planning_since u l before s1 h1 hp.1
    refine ⟨pre, frame, t0, mid, s0, s1.planner, g1, g2, g3, g4, ?_, ?_⟩
    · rw [← g5]
      congr 1
      have k := nodeKnows u l pre s0 g4
      unfold planCalls updateCalls
      rw [← k.pose, ← k.velocity, ← k.px4, ← k.mission]
      cases s0.goals.new_goal <;> simp
    · rw [gen_planner_run after _ _ h3 hafter]
      rfl

theorem newestPlan_split (es : List NodeEvent) : (newestPlan es = 0 ∧ ∀ e ∈ es, ¬ IsPlanEnd e) ∨
    ∃ before t after, es = before ++ .planEnd t :: after ∧ (∀ e ∈ after, ¬ IsPlanEnd e) ∧ newestPlan es = t := by
  induction es using List.reverseRecOn with
  | nil => exact Or.inl ⟨rfl, by simp⟩
  | append_singleton es e ih =>
    have keep : ¬ IsPlanEnd e → newestPlan (es ++ [e]) = newestPlan es → (newestPlan (es ++ [e]) = 0 ∧ ∀ x ∈ es ++ [e], ¬ IsPlanEnd x) ∨
        ∃ before t after, es ++ [e] = before ++ NodeEvent.planEnd t :: after ∧ (∀ e ∈ after, ¬ IsPlanEnd e) ∧ newestPlan (es ++ [e]) = t := by
      intro he hn
      rcases ih with ⟨a1, a2⟩ | ⟨b, t, a, b1, b2, b3⟩
      · refine Or.inl ⟨hn.trans a1, ?_⟩
        intro x hx
        rcases List.mem_append.1 hx with hx | hx
        · exact a2 x hx
        · rw [List.mem_singleton] at hx; subst hx; exact he
      · refine Or.inr ⟨b, t, a ++ [e], by rw [b1]; simp, ?_, hn.trans b3⟩
        intro x hx
        rcases List.mem_append.1 hx with hx | hx
        · exact b2 x hx
        · rw [List.mem_singleton] at hx; subst hx; exact he
    cases e with
    | planEnd t => exact Or.inr ⟨es, t, [], rfl, by simp, by rw [newestPlan_snoc]⟩
    | _ => exact keep (fun h => h) (by rw [newestPlan_snoc])

/-- **C91, fresh plans.** More than 5 s after the start a setpoint is only sent if a plan was handed over within the last half second, with
a cloud of every camera. -/
theorem C91_fresh (u : Uninit) (l : Launch) (es : List NodeEvent) (s s' : NodeSt) (now : ℝ) (hl : 0 ≤ l.start)
    (h : loopM (nodeStep Q) (nodeInit u l) es = some s) (hs : nodeStep Q s (.send now) = some s') (hup : 5 < now - l.start)
    (hsent : s'.sent ≠ s.sent) :
    ∃ pre frame t0 mid t after, es = pre ++ .planStart frame t0 :: mid ++ .planEnd t :: after ∧ frame ≠ [] ∧ now - t ≤ 1 / 2 ∧
      ∀ e ∈ after, ¬ IsPlanEnd e := by
  obtain ⟨-, a2⟩ := C91_message u l es s s' now h hs
  have hc : now - newestPlan es ≤ 1 / 2 ∨ now - l.start ≤ 5 := by
    by_contra hc
    exact hsent (a2 hc).2
  rcases newestPlan_split es with ⟨b1, -⟩ | ⟨before, t, after, b1, b2, b3⟩
  · rw [b1] at hc
    rcases hc with hc | hc <;> linarith
  · obtain ⟨pre, frame, t0, mid, s0, p, c1, c2, -⟩ := (C91_plan_used u l es s h).2 before t after b1 b2
    refine ⟨pre, frame, t0, mid, t, after, by rw [b1, c1], c2, ?_, b2⟩
    rw [b3] at hc
    rcases hc with hc | hc
    · exact hc
    · linarith

/-- The goal members change only by goals and when a plan takes them. -/
theorem goals_step {s s' : NodeSt} {e : NodeEvent} (he : ¬ IsGoal e) (h : nodeStep Q s e = some s') :
    s'.goals.goal = s.goals.goal ∧ s'.goals.is_land = s.goals.is_land ∧ s'.goals.is_takeoff = s.goals.is_takeoff ∧
    s'.goals.desired_velocity = s.goals.desired_velocity ∧ s'.goals.prev_goal = s.goals.prev_goal := by
  cases e with
  | clicked p => exact absurd trivial he
  | topic p => exact absurd trivial he
  | fcu p => exact absurd trivial he
  | config c a b t =>
    unfold nodeStep at h
    dsimp only at h
    split_ifs at h
    obtain rfl := Option.some.inj h
    exact ⟨rfl, rfl, rfl, rfl, rfl⟩
  | planStart f t =>
    unfold nodeStep at h
    dsimp only at h
    split_ifs at h
    rw [Option.map_eq_some_iff] at h
    obtain ⟨pl, -, rfl⟩ := h
    exact ⟨rfl, rfl, rfl, rfl, rfl⟩
  | planEnd t =>
    unfold nodeStep at h
    dsimp only at h
    split_ifs at h
    obtain rfl := Option.some.inj h
    exact ⟨rfl, rfl, rfl, rfl, rfl⟩
  | timer t =>
    unfold nodeStep at h
    dsimp only at h
    split_ifs at h
    obtain rfl := Option.some.inj h
    exact ⟨rfl, rfl, rfl, rfl, rfl⟩
  | poll t =>
    unfold nodeStep at h
    dsimp only at h
    rw [Option.bind_eq_some_iff] at h
    obtain ⟨t0, -, h⟩ := h
    split_ifs at h <;> obtain rfl := Option.some.inj h <;> exact ⟨rfl, rfl, rfl, rfl, rfl⟩
  | send t =>
    unfold nodeStep at h
    dsimp only at h
    split_ifs at h
    obtain rfl := Option.some.inj h
    obtain ⟨-, -, -, -, -, q6, -⟩ := sendStep_keeps s t
    rw [q6]
    exact ⟨rfl, rfl, rfl, rfl, rfl⟩
  | _ => obtain rfl := Option.some.inj h; exact ⟨rfl, rfl, rfl, rfl, rfl⟩

theorem goals_run (es : List NodeEvent) : ∀ s s', loopM (nodeStep Q) s es = some s' → (∀ e ∈ es, ¬ IsGoal e) →
    s'.goals.goal = s.goals.goal ∧ s'.goals.is_land = s.goals.is_land ∧ s'.goals.is_takeoff = s.goals.is_takeoff ∧
    s'.goals.desired_velocity = s.goals.desired_velocity ∧ s'.goals.prev_goal = s.goals.prev_goal := by
  induction es with
  | nil => intro s s' h _; obtain rfl := Option.some.inj h; exact ⟨rfl, rfl, rfl, rfl, rfl⟩
  | cons e es ih =>
    intro s s' h he
    have h : (nodeStep Q s e).bind (fun t => loopM (nodeStep Q) t es) = some s' := h
    rw [Option.bind_eq_some_iff] at h
    obtain ⟨t, h1, h2⟩ := h
    obtain ⟨a1, a2, a3, a4, a5⟩ := ih t s' h2 (fun x hx => he x (List.mem_cons_of_mem _ hx))
    obtain ⟨b1, b2, b3, b4, b5⟩ := goals_step (he e List.mem_cons_self) h1
    exact ⟨a1.trans b1, a2.trans b2, a3.trans b3, a4.trans b4, a5.trans b5⟩

/-- The mission item the autopilot announced last: the second point of its last message that had one. -/
def newestItem : List NodeEvent → V3 ℝ :=
  newest (fun e => match e with | .fcu m => if m.valid1 then some m.position2 else none | _ => none) ⟨0, 0, 0⟩

theorem newestItem_snoc (es : List NodeEvent) (e : NodeEvent) : newestItem (es ++ [e]) =
    (match e with | .fcu m => if m.valid1 then m.position2 else newestItem es | _ => newestItem es) := by
  cases e with
  | fcu m =>
    by_cases h : m.valid1 = true
    · exact (newest_snoc_some _ _ _ _ m.position2 (by simp [h])).trans (by simp [h])
    · exact (newest_snoc_none _ _ _ _ (by simp [h])).trans (by simp [h, newestItem])
  | _ => exact newest_snoc_none _ _ _ _ rfl

/-- What the node remembers about sources of goals. -/
theorem goal_sources (u : Uninit) (l : Launch) (es : List NodeEvent) : ∀ s, loopM (nodeStep Q) (nodeInit u l) es = some s →
    s.goals.accept_topic = l.accept_topic ∧ s.goals.mission_item = newestItem es := by
  induction es using List.reverseRecOn with
  | nil => intro s h; obtain rfl := Option.some.inj h; exact ⟨rfl, rfl⟩
  | append_singleton es e ih =>
    intro s' h
    obtain ⟨s, h1, h2⟩ := loopM_snoc h
    obtain ⟨a1, a2⟩ := ih s h1
    rw [newestItem_snoc]
    cases e with
    | topic ms =>
      obtain rfl := Option.some.inj h2
      show (updateGoal s.goals ms).accept_topic = _ ∧ (updateGoal s.goals ms).mission_item = _
      unfold updateGoal
      split
      · exact ⟨a1, a2⟩
      · exact ⟨a1, a2⟩
    | fcu m =>
      obtain rfl := Option.some.inj h2
      show (fcuInputGoal s.goals m).accept_topic = _ ∧ (fcuInputGoal s.goals m).mission_item = _
      unfold fcuInputGoal fcuSecond fcuFirst
      dsimp only
      split_ifs <;> first | exact ⟨a1, rfl⟩ | exact ⟨a1, a2⟩
    | config c a b t =>
      unfold nodeStep at h2
      dsimp only at h2
      split_ifs at h2
      obtain rfl := Option.some.inj h2
      exact ⟨a1, a2⟩
    | planStart f t =>
      unfold nodeStep at h2
      dsimp only at h2
      split_ifs at h2
      rw [Option.map_eq_some_iff] at h2
      obtain ⟨pl, -, rfl⟩ := h2
      exact ⟨a1, a2⟩
    | planEnd t =>
      unfold nodeStep at h2
      dsimp only at h2
      split_ifs at h2
      obtain rfl := Option.some.inj h2
      exact ⟨a1, a2⟩
    | timer t =>
      unfold nodeStep at h2
      dsimp only at h2
      split_ifs at h2
      obtain rfl := Option.some.inj h2
      exact ⟨a1, a2⟩
    | poll t =>
      unfold nodeStep at h2
      dsimp only at h2
      rw [Option.bind_eq_some_iff] at h2
      obtain ⟨t0, -, h2⟩ := h2
      split_ifs at h2 <;> obtain rfl := Option.some.inj h2 <;> exact ⟨a1, a2⟩
    | send t =>
      unfold nodeStep at h2
      dsimp only at h2
      split_ifs at h2
      obtain rfl := Option.some.inj h2
      obtain ⟨-, -, -, -, -, q6, -⟩ := sendStep_keeps s t
      rw [q6]
      exact ⟨a1, a2⟩
    | _ => obtain rfl := Option.some.inj h2; exact ⟨a1, a2⟩

/-- **C91, goals that are ignored.** A goal topic is ignored unless the launch file allows it (or if it is empty); a message of the autopilot
is ignored if its first point is not valid or it names the mission item already known, unless its second point ends the mission. -/
theorem C91_goal_ignored (u : Uninit) (l : Launch) (es : List NodeEvent) (s s' : NodeSt)
    (h : loopM (nodeStep Q) (nodeInit u l) es = some s) :
    (∀ ms, (l.accept_topic = false ∨ ms = []) → nodeStep Q s (.topic ms) = some s' → s' = s) ∧
    (∀ m, (m.valid0 = false ∨ (m.position2.minus (newestItem es)).norm ≤ 1 / 100) → ¬ (m.valid1 = true ∧ m.command1 = 65535) →
      nodeStep Q s (.fcu m) = some s' → s'.goals.goal = s.goals.goal ∧ s'.goals.new_goal = s.goals.new_goal ∧
        s'.goals.desired_velocity = s.goals.desired_velocity ∧ s'.goals.is_land = s.goals.is_land ∧
        s'.goals.is_takeoff = s.goals.is_takeoff) := by
  obtain ⟨a1, a2⟩ := goal_sources u l es s h
  have k := nodeKnows u l es s h
  constructor
  · intro ms hm hs
    obtain rfl := Option.some.inj hs
    have e : updateGoal s.goals ms = s.goals := by
      unfold updateGoal
      rw [a1]
      rcases hm with hm | hm
      · rw [hm]
      · rw [hm]; cases l.accept_topic <;> rfl
    rw [e]
  · intro m hm hc hs
    obtain rfl := Option.some.inj hs
    have hf : fcuFirst s.goals m = s.goals := by
      unfold fcuFirst
      rw [if_neg]
      rintro ⟨v, hu⟩
      rcases hm with hm | hm
      · rw [hm] at v; cases v
      · unfold fcuUpdate at hu
        rcases of_decide_eq_true hu with hu | hu | hu
        · rw [a2] at hu
          have hs := V3.norm_sq (m.position2.minus (newestItem es))
          unfold V3.dot V3.minus at hs
          dsimp only at hs
          have h0 := V3.norm_nonneg (m.position2.minus (newestItem es))
          unfold V3.minus at hm h0
          nlinarith
        · rw [k.goal] at hu; cases hu
        · rw [k.goal] at hu; cases hu
    show (fcuInputGoal s.goals m).goal = _ ∧ (fcuInputGoal s.goals m).new_goal = _ ∧ (fcuInputGoal s.goals m).desired_velocity = _ ∧
      (fcuInputGoal s.goals m).is_land = _ ∧ (fcuInputGoal s.goals m).is_takeoff = _
    unfold fcuInputGoal
    rw [hf]
    unfold fcuSecond
    split_ifs with h1 h2
    · exact absurd ⟨h1, h2⟩ hc
    · exact ⟨rfl, rfl, rfl, rfl, rfl⟩
    · exact ⟨rfl, rfl, rfl, rfl, rfl⟩

/-- **C91, the goal in force.** Until a goal arrives it is the one of the launch file. After a goal clicked on the map it is that point at the
height of the planner's goal at that time; after a goal topic (if accepted) its first marker; after the autopilot announced a new
waypoint, that waypoint, with its kind and velocity; after the autopilot announced the end of the mission, the announced point. -/
theorem C91_goal_in_force (u : Uninit) (l : Launch) (es : List NodeEvent) (s : NodeSt)
    (h : loopM (nodeStep Q) (nodeInit u l) es = some s) :
    ((∀ e ∈ es, ¬ IsGoal e) → s.goals.goal.val = l.goal ∧ s.goals.is_land = false ∧ s.goals.is_takeoff = false) ∧
    (∀ before p after s0, es = before ++ .clicked p :: after → (∀ e ∈ after, ¬ IsGoal e) → loopM (nodeStep Q) (nodeInit u l) before = some s0 →
      s.goals.goal.val = ⟨p.x, p.y, s0.planner.goal.z⟩) ∧
    (∀ before m ms after s0, es = before ++ .topic (m :: ms) :: after → (∀ e ∈ after, ¬ IsGoal e) →
      loopM (nodeStep Q) (nodeInit u l) before = some s0 → l.accept_topic = true → s.goals.goal.val = m) ∧
    (∀ before m after s0, es = before ++ .fcu m :: after → (∀ e ∈ after, ¬ IsGoal e) → loopM (nodeStep Q) (nodeInit u l) before = some s0 →
      m.valid0 = true → 1 / 100 < (m.position2.minus (newestItem before)).norm → ¬ (m.valid1 = true ∧ m.command1 = 65535) →
      s.goals.goal.val = m.position1 ∧ s.goals.desired_velocity = m.velocity1 ∧ s.goals.is_land = decide (m.command0 = 21) ∧
        s.goals.is_takeoff = decide (m.command0 = 22)) ∧
    (∀ before m after, es = before ++ .fcu m :: after → (∀ e ∈ after, ¬ IsGoal e) → m.valid1 = true → m.command1 = 65535 →
      s.goals.goal.val = m.position2 ∧ s.goals.desired_velocity = V3.nan) := by
  have split : ∀ before e after, es = before ++ e :: after → ∀ s0, loopM (nodeStep Q) (nodeInit u l) before = some s0 →
      ∃ s1, nodeStep Q s0 e = some s1 ∧ loopM (nodeStep Q) s1 after = some s := by
    intro before e after he s0 h0
    rw [he, show before ++ e :: after = (before ++ [e]) ++ after by simp, loopM_append', Option.bind_eq_some_iff] at h
    obtain ⟨s2, h2, h3⟩ := h
    obtain ⟨s1, h1, h4⟩ := loopM_snoc h2
    rw [h0] at h1
    obtain rfl := Option.some.inj h1
    exact ⟨s2, h4, h3⟩
  refine ⟨?_, ?_, ?_, ?_, ?_⟩
  · intro he
    obtain ⟨a1, a2, a3, -⟩ := goals_run es _ _ h he
    rw [a1, a2, a3]
    exact ⟨rfl, rfl, rfl⟩
  · intro before p after s0 he ha h0
    obtain ⟨s1, h1, h2⟩ := split before _ after he s0 h0
    obtain rfl := Option.some.inj h1
    rw [(goals_run after _ _ h2 ha).1]
    rfl
  · intro before m ms after s0 he ha h0 hacc
    obtain ⟨s1, h1, h2⟩ := split before _ after he s0 h0
    obtain rfl := Option.some.inj h1
    rw [(goals_run after _ _ h2 ha).1]
    show (updateGoal s0.goals (m :: ms)).goal.val = m
    unfold updateGoal
    rw [(goal_sources u l before s0 h0).1, hacc]
    rfl
  · intro before m after s0 he ha h0 hv hn h1
    obtain ⟨s1, e1, h2⟩ := split before _ after he s0 h0
    obtain rfl := Option.some.inj e1
    obtain ⟨a1, a2, a3, a4, -⟩ := goals_run after _ _ h2 ha
    rw [a1, a2, a3, a4]
    rw [← (goal_sources u l before s0 h0).2] at hn
    have hu : fcuUpdate s0.goals m = true := by
      unfold fcuUpdate
      apply decide_eq_true
      left
      have hs := V3.norm_sq (m.position2.minus s0.goals.mission_item)
      unfold V3.dot V3.minus at hs
      dsimp only at hs
      have h0 := V3.norm_nonneg (m.position2.minus s0.goals.mission_item)
      unfold V3.minus at hn h0
      nlinarith
    show (fcuInputGoal s0.goals m).goal.val = _ ∧ (fcuInputGoal s0.goals m).desired_velocity = _ ∧ (fcuInputGoal s0.goals m).is_land = _ ∧
      (fcuInputGoal s0.goals m).is_takeoff = _
    have hvu : m.valid0 = true ∧ fcuUpdate s0.goals m = true := ⟨hv, hu⟩
    have hf : fcuFirst s0.goals m =
        { s0.goals with new_goal := true, prev_goal := s0.goals.goal, goal := m.position1.some', desired_velocity := m.velocity1, is_land := decide (m.command0 = 21), is_takeoff := decide (m.command0 = 22) } := if_pos hvu
    unfold fcuInputGoal
    rw [hf]
    unfold fcuSecond
    by_cases hb : m.valid1 = true
    · have hc : ¬ m.command1 = 65535 := fun hc => h1 ⟨hb, hc⟩
      rw [if_pos hb, if_neg hc]
      exact ⟨rfl, rfl, rfl, rfl⟩
    · rw [if_neg hb]
      exact ⟨rfl, rfl, rfl, rfl⟩
  · intro before m after he ha hv hc
    have h0 : ∃ s0, loopM (nodeStep Q) (nodeInit u l) before = some s0 := by
      rw [he, loopM_append', Option.bind_eq_some_iff] at h
      exact ⟨h.choose, h.choose_spec.1⟩
    obtain ⟨s0, h0⟩ := h0
    obtain ⟨s1, e1, h2⟩ := split before _ after he s0 h0
    obtain rfl := Option.some.inj e1
    obtain ⟨a1, -, -, a4, -⟩ := goals_run after _ _ h2 ha
    rw [a1, a4]
    show (fcuSecond (fcuFirst s0.goals m) m).goal.val = _ ∧ (fcuSecond (fcuFirst s0.goals m) m).desired_velocity = _
    unfold fcuSecond
    rw [if_pos hv, if_pos hc]
    exact ⟨rfl, rfl⟩

/-! ### Fields of view -/

theorem setFOVs_eq (frame : List (List (V3 (Flt ℝ)) × FOV ℝ)) : ∀ (k : ℕ) (L : List (FOV ℝ)), k ≤ L.length → L.length ≤ k + frame.length →
    (frame.zipIdx k).foldl (fun l x => wgSetFOV l x.2 x.1.2) L = L.take k ++ frame.map (·.2) := by
  induction frame with
  | nil =>
    intro k L h1 h2
    simp only [List.length_nil, Nat.add_zero] at h2
    simp [List.take_of_length_le h2]
  | cons f frame ih =>
    intro k L h1 h2
    rw [List.zipIdx_cons, List.foldl_cons]
    simp only [List.length_cons] at h2
    by_cases hk : k < L.length
    · have e : wgSetFOV L k f.2 = L.set k f.2 := by unfold wgSetFOV; rw [if_pos hk]
      rw [e, ih (k + 1) _ (by rw [List.length_set]; omega) (by rw [List.length_set]; omega), List.take_set, List.map_cons,
        List.take_succ_eq_append_getElem hk]
      rw [List.set_append_right _ _ (by rw [List.length_take]; omega)]
      simp [List.length_take, min_eq_left h1]
    · have hk' : k = L.length := by omega
      have e : wgSetFOV L k f.2 = L ++ [f.2] := by
        unfold wgSetFOV; rw [if_neg hk, hk']; simp
      rw [e, ih (k + 1) _ (by simp [hk']) (by simp; omega), List.take_of_length_le (by simp [hk']), List.take_of_length_le (by omega)]
      simp

/-- The fields of view of the last planning snapshot; none before the first. -/
def newestFovs : List NodeEvent → List (FOV ℝ) :=
  newest (fun e => match e with | .planStart f _ => some (f.map (·.2)) | _ => none) []

theorem newestFovs_snoc (es : List NodeEvent) (e : NodeEvent) : newestFovs (es ++ [e]) =
    (match e with | .planStart f _ => f.map (·.2) | _ => newestFovs es) := by
  cases e <;> first | exact newest_snoc_some _ _ _ _ _ rfl | exact newest_snoc_none _ _ _ _ rfl

/-- **C91, fields of view.** With a fixed number of cameras, the generator scales its speed by the fields of view of the last planning
snapshot; before the first one it has none, and so (C38) does not speed up except to change altitude or within a metre of the goal. -/
theorem C91_fields_of_view (u : Uninit) (l : Launch) (n : ℕ) (es : List NodeEvent) : ∀ s,
    loopM (nodeStep Q) (nodeInit u l) es = some s → (∀ f t, .planStart f t ∈ es → f.length = n) → s.gen.2.fovs = newestFovs es := by
  have len : ∀ es : List NodeEvent, (∀ f t, .planStart f t ∈ es → f.length = n) → (newestFovs es).length ≤ n := by
    intro es
    induction es using List.reverseRecOn with
    | nil => intro _; exact Nat.zero_le _
    | append_singleton es e ih =>
      intro hf
      have h1 := ih (fun f t hm => hf f t (List.mem_append_left _ hm))
      cases e with
      | planStart f t =>
        rw [newestFovs_snoc]
        dsimp only
        rw [List.length_map, hf f t (by simp)]
      | _ => rw [newestFovs_snoc]; exact h1
  induction es using List.reverseRecOn with
  | nil =>
    intro s h _
    obtain rfl := Option.some.inj h
    rfl
  | append_singleton es e ih =>
    intro s' h hf
    obtain ⟨s, h1, h2⟩ := loopM_snoc h
    have hf' : ∀ f t, .planStart f t ∈ es → f.length = n := fun f t hm => hf f t (List.mem_append_left _ hm)
    have k := ih s h1 hf'
    have keep : (∀ f t, e ≠ .planStart f t) → newestFovs (es ++ [e]) = newestFovs es := by
      intro he
      unfold newestFovs
      apply newest_snoc_none
      cases e with
      | planStart f t => exact absurd rfl (he f t)
      | _ => rfl
    cases e with
    | planStart f t =>
      unfold nodeStep at h2
      dsimp only at h2
      split_ifs at h2
      rw [Option.map_eq_some_iff] at h2
      obtain ⟨pl, -, rfl⟩ := h2
      dsimp only
      rw [setFOVs_eq f 0 _ (Nat.zero_le _) (by rw [k, Nat.zero_add, hf f t (by simp)]; exact len es hf')]
      rw [newestFovs_snoc]
      simp
    | config c a b t =>
      unfold nodeStep at h2
      dsimp only at h2
      split_ifs at h2
      obtain rfl := Option.some.inj h2
      rw [keep (fun _ _ h => by cases h)]; exact k
    | planEnd t =>
      unfold nodeStep at h2
      dsimp only at h2
      split_ifs at h2
      obtain rfl := Option.some.inj h2
      rw [keep (fun _ _ h => by cases h)]; exact k
    | timer t =>
      unfold nodeStep at h2
      dsimp only at h2
      split_ifs at h2
      obtain rfl := Option.some.inj h2
      rw [keep (fun _ _ h => by cases h)]; exact k
    | poll t =>
      unfold nodeStep at h2
      dsimp only at h2
      rw [Option.bind_eq_some_iff] at h2
      obtain ⟨t0, -, h2⟩ := h2
      split_ifs at h2 <;> obtain rfl := Option.some.inj h2 <;> rw [keep (fun _ _ h => by cases h)] <;> exact k
    | send t =>
      unfold nodeStep at h2
      dsimp only at h2
      split_ifs at h2
      obtain rfl := Option.some.inj h2
      rw [keep (fun _ _ h => by cases h), ← k]
      obtain ⟨a1, a2⟩ := sendStep_active s t
      by_cases ha : t - s.last_wp_time ≤ 1 / 2 ∨ t - s.start_time ≤ 5
      · rw [(a1 ha).1, (wgCycle_params _ _ _).2.1]
      · rw [(a2 ha).1]
    | _ =>
      obtain rfl := Option.some.inj h2
      rw [keep (fun _ _ h => by cases h)]; exact k

/-- **C91, smoothing.** The generator smooths with the parameters of the last configuration (10 and 3 before the first). -/
theorem C91_smoothing (u : Uninit) (l : Launch) (es : List NodeEvent) (s : NodeSt)
    (h : loopM (nodeStep Q) (nodeInit u l) es = some s) :
    (s.gen.2.smoothing_speed_xy, s.gen.2.smoothing_speed_z) = newestSmoothing es := (nodeKnows u l es s h).smoothing

/-- Until the worker takes the goal, a new goal stays announced. -/
theorem newGoal_run (es : List NodeEvent) : ∀ s s', loopM (nodeStep Q) s es = some s' → (∀ e ∈ es, ¬ IsGoal e) →
    (∀ f t, NodeEvent.planStart f t ∉ es) → s'.goals.new_goal = s.goals.new_goal := by
  induction es with
  | nil => intro s s' h _ _; obtain rfl := Option.some.inj h; rfl
  | cons e es ih =>
    intro s s' h hg hp
    have h : (nodeStep Q s e).bind (fun t => loopM (nodeStep Q) t es) = some s' := h
    rw [Option.bind_eq_some_iff] at h
    obtain ⟨t, h1, h2⟩ := h
    rw [ih t s' h2 (fun x hx => hg x (List.mem_cons_of_mem _ hx)) (fun f t hx => hp f t (List.mem_cons_of_mem _ hx))]
    have hge := hg e List.mem_cons_self
    have hpe := fun f t => hp f t
    cases e with
    | clicked p => exact absurd trivial hge
    | topic p => exact absurd trivial hge
    | fcu p => exact absurd trivial hge
    | planStart f t => exact absurd List.mem_cons_self (hpe f t)
    | config c a b t =>
      unfold nodeStep at h1
      dsimp only at h1
      split_ifs at h1
      obtain rfl := Option.some.inj h1
      rfl
    | planEnd t =>
      unfold nodeStep at h1
      dsimp only at h1
      split_ifs at h1
      obtain rfl := Option.some.inj h1
      rfl
    | timer t =>
      unfold nodeStep at h1
      dsimp only at h1
      split_ifs at h1
      obtain rfl := Option.some.inj h1
      rfl
    | poll t =>
      unfold nodeStep at h1
      dsimp only at h1
      rw [Option.bind_eq_some_iff] at h1
      obtain ⟨t0, -, h1⟩ := h1
      split_ifs at h1 <;> obtain rfl := Option.some.inj h1 <;> rfl
    | send t =>
      unfold nodeStep at h1
      dsimp only at h1
      split_ifs at h1
      obtain rfl := Option.some.inj h1
      obtain ⟨-, -, -, -, -, q6, -⟩ := sendStep_keeps s t
      rw [q6]
    | _ => obtain rfl := Option.some.inj h1; rfl

/-- The calls that are not goals keep the planner's goals. -/
theorem planner_goals_run (cs : List LpEvent) : ∀ p p', loopM (lpStep Q) p cs = some p' →
    (∀ c ∈ cs, (∀ g, c ≠ .goal g) ∧ (∀ g, c ≠ .prevGoal g) ∧ ∀ f, c ≠ .config f) → p'.goal = p.goal ∧ p'.prev_goal = p.prev_goal := by
  induction cs with
  | nil => intro p p' h _; obtain rfl := Option.some.inj h; exact ⟨rfl, rfl⟩
  | cons c cs ih =>
    intro p p' h hc
    have h : (lpStep Q p c).bind (fun t => loopM (lpStep Q) t cs) = some p' := h
    rw [Option.bind_eq_some_iff] at h
    obtain ⟨t, h1, h2⟩ := h
    obtain ⟨a1, a2⟩ := ih t p' h2 (fun x hx => hc x (List.mem_cons_of_mem _ hx))
    rw [a1, a2]
    obtain ⟨c1, c2, c3⟩ := hc c List.mem_cons_self
    cases c with
    | goal g => exact absurd rfl (c1 g)
    | prevGoal g => exact absurd rfl (c2 g)
    | run now =>
      obtain ⟨out, hh, d, st, tt, r⟩ := run_spec (show p.run Q now = some t from h1)
      rw [r.eq]
      exact ⟨rfl, rfl⟩
    | config cf => exact absurd rfl (c3 cf)
    | _ => obtain rfl := Option.some.inj h1; exact ⟨rfl, rfl⟩

/-- **C91, finding.** Nothing initialises the previous goal: the first plan, if no other goal has arrived before, keeps to the line from
wherever the memory says to the goal of the launch file. -/
theorem C91_previous_goal_uninitialised_violated (u : Uninit) (l : Launch) (es : List NodeEvent) (s s' : NodeSt)
    (frame : List (List (V3 (Flt ℝ)) × FOV ℝ)) (now : ℝ) (h : loopM (nodeStep Q) (nodeInit u l) es = some s)
    (hg : ∀ e ∈ es, ¬ IsGoal e) (hp : ∀ f t, .planStart f t ∉ es) (hs : nodeStep Q s (.planStart frame now) = some s') :
    s'.planner.prev_goal = u.prev_goal ∧ s'.planner.goal = l.goal := by
  obtain ⟨a1, -, -, -, a5⟩ := goals_run es _ _ h hg
  have an : s.goals.new_goal = true := newGoal_run es _ _ h hg hp
  unfold nodeStep at hs
  dsimp only at hs
  split_ifs at hs
  rw [Option.map_eq_some_iff] at hs
  obtain ⟨pl, hl, rfl⟩ := hs
  unfold updateCalls at hl
  rw [if_pos an, loopM_append', Option.bind_eq_some_iff] at hl
  obtain ⟨p1, hl, h3⟩ := hl
  rw [loopM_append', Option.bind_eq_some_iff] at hl
  obtain ⟨p2, hl, h4⟩ := hl
  rw [loopM_append', Option.bind_eq_some_iff] at hl
  obtain ⟨p3, hl, h5⟩ := hl
  obtain ⟨b1, b2⟩ := planner_goals_run _ _ _ h3 (by intro c hc; simp at hc; subst hc; exact ⟨fun _ h => (by cases h), fun _ h => (by cases h), fun _ h => (by cases h)⟩)
  obtain ⟨b3, b4⟩ := planner_goals_run _ _ _ h4
    (by intro c hc; simp at hc; rcases hc with rfl | rfl <;> exact ⟨fun _ h => (by cases h), fun _ h => (by cases h), fun _ h => (by cases h)⟩)
  have h6 : some ((p3.setGoal s.goals.goal.val).setPreviousGoal s.goals.prev_goal.val) = some p2 := h5
  obtain rfl := Option.some.inj h6
  dsimp only
  rw [b1, b2, b3, b4, a1, a5]
  exact ⟨rfl, rfl⟩

/-- **C91, finding.** A configuration with another goal height changes the goal the planner plans to, but not the goal the setpoints are
made for: until the next goal the two disagree. -/
theorem C91_reconfigured_goal_violated (s s' : NodeSt) (c : LpConfig) (a b t : ℝ)
    (h : nodeStep Q s (.config c a b t) = some s') :
    s'.planner.goal.z = c.goal_z ∧ s'.goals = s.goals ∧ ∀ hover, (inputOf s' hover).goal = s.goals.goal.val := by
  unfold nodeStep at h
  dsimp only at h
  split_ifs at h
  obtain rfl := Option.some.inj h
  refine ⟨?_, rfl, fun _ => rfl⟩
  dsimp only
  unfold LPlanner.configure
  dsimp only
  split_ifs with h
  · rfl
  · push Not at h
    exact h

/-! ### Non-vacuity: a node that plans and sends -/

/-- Memory that happens to hold a previous goal at the start. -/
noncomputable def exampleUninit : Uninit where
  position := ⟨0, 0, 0⟩
  velocity := ⟨0, 0, 0⟩
  orientation := ⟨1, 0, 0, 0⟩
  prev_goal := ⟨0, 0, 3⟩
  desired_velocity := V3.nan
  cruise_velocity := none
  goto := ⟨0, 0, 0⟩
  adapted := ⟨0, 0, 0⟩
  smoothed := ⟨0, 0, 0⟩
  out_position := V3.nan
  out_velocity := V3.nan

/-- A goal 20 m to the east. -/
noncomputable def exampleLaunch : Launch := ⟨⟨20, 0, 3⟩, false, 0, ⟨5, 20, 3, .fin 4⟩⟩

/-- One point 5 m to the east, and a camera. -/
noncomputable def exampleFrame : List (List (V3 (Flt ℝ)) × FOV ℝ) :=
  [([⟨.fin 5, .fin 0, .fin 3⟩, ⟨.nan, .fin 0, .fin 0⟩], ⟨0, 0, 60, 45⟩)]

/-- Configured, in a mission, with a pose and a velocity. -/
noncomputable def exampleNodeStart : List NodeEvent :=
  [.config exampleSeenConfig 10 3 20, .state true "AUTO.MISSION", .pose ⟨0, 0, 3⟩ ⟨1, 0, 0, 0⟩, .velocity ⟨1, 0, 0⟩]

/-- The node takes its snapshot, plans, hands over and sends; the planner was called with the history of `exampleSeen_meets`. -/
theorem exampleNode_runs (Q : PriorityQueue (Candidate ℝ) Candidate.lt) :
    ∃ s s1 s2 s3, loopM (nodeStep Q) (nodeInit exampleUninit exampleLaunch) exampleNodeStart = some s ∧
      nodeStep Q s (.planStart exampleFrame 1) = some s1 ∧ s1.calls = exampleSeenHistory ++ [.run 1] ∧
      loopM (nodeStep Q) s1 [.planEnd 10, .timer 10, .pose ⟨0, 0, 3⟩ ⟨1, 0, 0, 0⟩] = some s2 ∧
      nodeStep Q s2 (.send (101 / 10)) = some s3 ∧ s2.sent = [] ∧ s3.sent ≠ [] ∧ s2.goals.is_takeoff = false := by
  have h : ∃ s, loopM (nodeStep Q) (nodeInit exampleUninit exampleLaunch) exampleNodeStart = some s := ⟨_, rfl⟩
  obtain ⟨s, h⟩ := h
  obtain ⟨p, p', k1, k2, -⟩ := exampleSeen_meets Q
  have k3 : loopM (lpStep Q) lpInit (exampleSeenHistory ++ [.run 1]) = some p' := by
    rw [loopM_append', k1]
    show (lpStep Q p (.run 1)).bind (fun t => some t) = some p'
    rw [k2]
    rfl
  have kk := (nodeKnows _ _ _ s h).calls
  have facts : s.planning = false ∧ exampleSeenHistory ++ [LpEvent.run 1] = s.calls ++ (updateCalls s exampleFrame ++ [.run 1]) ∧
      s.cmd = none ∧ s.sent = [] ∧ s.goals.is_takeoff = false ∧ s.start_time = 0 := by
    obtain rfl := Option.some.inj h
    exact ⟨rfl, rfl, rfl, rfl, rfl, rfl⟩
  obtain ⟨f1, f2, f3, f4, f5, f6⟩ := facts
  rw [f2, loopM_append', kk] at k3
  have k4 : loopM (lpStep Q) s.planner (updateCalls s exampleFrame ++ [.run 1]) = some p' := k3
  have h1 : ∃ s1, nodeStep Q s (.planStart exampleFrame 1) = some s1 ∧ s1.calls = s.calls ++ (updateCalls s exampleFrame ++ [.run 1]) ∧
      s1.planning = true ∧ s1.cmd = s.cmd ∧ s1.sent = s.sent ∧ s1.goals.is_takeoff = s.goals.is_takeoff ∧ s1.start_time = s.start_time := by
    unfold nodeStep
    dsimp only
    rw [if_neg (by simp [exampleFrame, f1]), k4]
    exact ⟨_, rfl, rfl, rfl, rfl, rfl, rfl, rfl⟩
  obtain ⟨s1, g1, g2, g3, g4, g5, g6, g7⟩ := h1
  have h2 : ∃ s2, loopM (nodeStep Q) s1 [.planEnd 10, .timer 10, .pose ⟨0, 0, 3⟩ ⟨1, 0, 0, 0⟩] = some s2 ∧
      s2.position_received = true ∧ s2.cmd = some 10 ∧ s2.sent = s1.sent ∧ s2.goals.is_takeoff = s1.goals.is_takeoff ∧
      s2.last_wp_time = 10 ∧ s2.start_time = s1.start_time := by
    unfold loopM
    rw [show nodeStep Q s1 (.planEnd 10) = some { s1 with planning := false, last_wp_time := 10, gen := (s1.gen.1, { s1.gen.2 with planner := infoOf s1.planner }) }
      from if_pos ⟨g3, g4.trans f3⟩]
    unfold loopM
    dsimp only [Option.bind]
    rw [show ∀ x : NodeSt, x.cmd = none → nodeStep Q x (.timer 10) = some { x with cmd := some 10 } from fun x hx => if_pos hx]
    · exact ⟨_, rfl, rfl, rfl, rfl, rfl, rfl, rfl⟩
    · exact g4.trans f3
  obtain ⟨s2, m1, m2, m3, m4, m5, m6, m7⟩ := h2
  have hc : s2.cmd.isSome = true ∧ s2.position_received = true := ⟨by rw [m3]; rfl, m2⟩
  refine ⟨s, s1, s2, sendStep s2 (101 / 10), h, g1, by rw [g2, f2], m1, if_pos hc, by rw [m4, g5, f4], ?_, by rw [m5, g6, f5]⟩
  rw [((sendStep_active s2 (101 / 10)).1 (Or.inl (by rw [m6]; norm_num))).2.1]
  simp

/-- The hypotheses of `C91_message`, `C91_plan_used` (second part) and `C91_fresh` are met: a setpoint is sent 10.1 s after the start. -/
example (Q : PriorityQueue (Candidate ℝ) Candidate.lt) : ∃ es s s', loopM (nodeStep Q) (nodeInit exampleUninit exampleLaunch) es = some s ∧
    nodeStep Q s (.send (101 / 10)) = some s' ∧ 5 < 101 / 10 - exampleLaunch.start ∧ s'.sent ≠ s.sent ∧ NodeEvent.planEnd 10 ∈ es := by
  obtain ⟨s, s1, s2, s3, h1, h2, -, h3, h4, h5, h6, -⟩ := exampleNode_runs Q
  refine ⟨exampleNodeStart ++ .planStart exampleFrame 1 :: [.planEnd 10, .timer 10, .pose ⟨0, 0, 3⟩ ⟨1, 0, 0, 0⟩], s2, s3, ?_, h4, ?_,
    by rw [h5]; exact h6, by simp⟩
  · rw [loopM_append', h1]
    show (nodeStep Q s (.planStart exampleFrame 1)).bind _ = _
    rw [h2]
    exact h3
  · norm_num [exampleLaunch]

/-- The hypotheses of `C91_goal_in_force` are met, with a waypoint announced by the autopilot. -/
example (Q : PriorityQueue (Candidate ℝ) Candidate.lt) : ∃ s m, loopM (nodeStep Q) (nodeInit exampleUninit exampleLaunch) [.fcu m] = some s ∧
    m.valid0 = true ∧ 1 / 100 < (m.position2.minus (newestItem [])).norm ∧
    ¬ (m.valid1 = true ∧ m.command1 = 65535) ∧ s.goals.goal.val = ⟨1, 2, 3⟩ := by
  have hn : 1 / 100 < ((⟨4, 0, 0⟩ : V3 ℝ).minus (newestItem [])).norm := by
    have e : ((⟨4, 0, 0⟩ : V3 ℝ).minus (newestItem [])).norm = 4 := by
      rw [show newestItem [] = ⟨0, 0, 0⟩ from rfl]
      unfold V3.norm V3.dot V3.minus
      norm_num
      rw [show (16 : ℝ) = 4 ^ 2 by norm_num, Real.sqrt_sq (by norm_num)]
    rw [e]; norm_num
  have h : ∃ s, loopM (nodeStep Q) (nodeInit exampleUninit exampleLaunch)
      [.fcu ⟨true, true, ⟨1, 2, 3⟩, V3.nan, 16, ⟨4, 0, 0⟩, 16⟩] = some s := ⟨_, rfl⟩
  obtain ⟨s, h⟩ := h
  refine ⟨s, _, h, rfl, hn, by simp, ?_⟩
  exact ((C91_goal_in_force _ _ _ s h).2.2.2.1 [] _ [] _ rfl (by simp) rfl rfl hn (by simp)).1

end Avoidance
