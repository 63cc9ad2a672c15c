import Verif.RunPlanner
import Verif.StarPlannerProps
import Verif.LocalPlannerProps
import Verif.HistogramProps

/-!
# The local planner as a whole: which inputs a plan is made from (C86)
-/

namespace Avoidance

/-! ## Specification -/

/-- The last configuration of a history. -/
def lastConfig (es : List LpEvent) : Option LpConfig :=
  (es.filterMap fun e => match e with | .config c => some c | _ => none).getLast?

/-- The last pose of a history: position, velocity, attitude. -/
def lastState (es : List LpEvent) : Option (V3 ℝ × V3 ℝ × Quat ℝ) :=
  (es.filterMap fun e => match e with | .state p v q => some (p, v, q) | _ => none).getLast?

/-- The goal after a history: the last one given, at the height of the last configuration if there was one since. -/
def goalAfter (es : List LpEvent) : V3 ℝ :=
  es.foldl (fun g e => match e with | .goal g' => g' | .config c => { g with z := c.goal_z } | _ => g) ⟨0, 0, 0⟩

/-- A history in which the goal has been handed to the tree search: the node does so when it is initialised. -/
def GoalApplied (es : List LpEvent) : Prop := ∃ e ∈ es, e = .applyGoal ∨ ∃ g, e = .goal g

/-- The last previous goal of a history. -/
def lastPrevGoal (es : List LpEvent) : Option (V3 ℝ) :=
  (es.filterMap fun e => match e with | .prevGoal g => some g | _ => none).getLast?

/-- The last autopilot parameters of a history. -/
def lastPx4 (es : List LpEvent) : Option LpPx4 :=
  (es.filterMap fun e => match e with | .px4 p => some p | _ => none).getLast?

/-! ## Proofs -/

variable {Q : PriorityQueue (Candidate ℝ) Candidate.lt}

/-- What a run does to the state. -/
structure RunSpec (Q : PriorityQueue (Candidate ℝ) Candidate.lt) (s s' : LPlanner) (now : ℝ) (out : List (AgedPoint ℝ))
    (h : Histogram ℝ) (d : Option (List (Option ℝ))) (st : Star) (t : ℝ) : Prop where
  cloud : processPointcloud (s.cloudParams now) s.cloud s.clouds = some out
  hist : generateNewHistogram (Histogram.new ALPHA_RES) out s.position = some h
  eq : s' = { s with cloud := out, last_process_time := now, histogram := h, distances := d, closest_pt := closestPoint s.goal s.prev_goal s.position s.px4.xy_cruise, star := st, last_path_time := t }
  sent : (Flt.fin 0).lt s.px4.cp_dist = true → ∃ c r, compressHistogramElevation (Histogram.new ALPHA_RES) h s.position = some c ∧
    obstacleDistanceRanges c s.fovs s.position s.yaw_deg s.min_sensor_range s.max_sensor_range = some r ∧ d = some r
  kept : (Flt.fin 0).lt s.px4.cp_dist = false → d = s.distances
  empty : h.isEmpty fltMin = true → st = s.star ∧ t = s.last_path_time
  planned : h.isEmpty fltMin = false → t = now ∧
    (∃ M, getCostMatrix h s.goal s.position s.velocity s.cost s.smoothing_margin
      (closestPoint s.goal s.prev_goal s.position s.px4.xy_cruise) s.max_sensor_range s.min_sensor_range = some M) ∧
    ({ s.star with cost := s.cost, cloud := out, closest_pt := some (closestPoint s.goal s.prev_goal s.position s.px4.xy_cruise) } : Star).build Q = some st

theorem run_spec {s s' : LPlanner} {now : ℝ} (hrun : s.run Q now = some s') :
    ∃ out h d st t, RunSpec Q s s' now out h d st t := by
  unfold LPlanner.run at hrun
  rw [Option.bind_eq_some_iff] at hrun
  obtain ⟨out, ho, hrun⟩ := hrun
  unfold LPlanner.determineStrategy at hrun
  rw [Option.bind_eq_some_iff] at hrun
  obtain ⟨s2, h2, hrun⟩ := hrun
  unfold LPlanner.create2D at h2
  dsimp only at h2
  rw [Option.bind_eq_some_iff] at h2
  obtain ⟨h, hh, h2⟩ := h2
  have key : ∃ d, s2 = { s with cloud := out, last_process_time := now, histogram := h, distances := d } ∧
      ((Flt.fin 0).lt s.px4.cp_dist = true → ∃ c r, compressHistogramElevation (Histogram.new ALPHA_RES) h s.position = some c ∧
        obstacleDistanceRanges c s.fovs s.position s.yaw_deg s.min_sensor_range s.max_sensor_range = some r ∧ d = some r) ∧
      ((Flt.fin 0).lt s.px4.cp_dist = false → d = s.distances) := by
    by_cases hc : (Flt.fin 0).lt s.px4.cp_dist = true
    · rw [if_pos hc, Option.bind_eq_some_iff] at h2
      obtain ⟨c, hc1, h2⟩ := h2
      rw [Option.map_eq_some_iff] at h2
      obtain ⟨r, hr, e⟩ := h2
      exact ⟨some r, e.symm, fun _ => ⟨c, r, hc1, hr, rfl⟩, fun hf => by rw [hc] at hf; cases hf⟩
    · rw [if_neg hc] at h2
      exact ⟨s.distances, (Option.some.inj h2).symm, fun hf => absurd hf hc, fun _ => rfl⟩
  obtain ⟨d, e2, k1, k2⟩ := key
  rw [e2] at hrun
  dsimp only at hrun
  by_cases hem : h.isEmpty fltMin = true
  · rw [if_neg (by rw [hem]; decide)] at hrun
    exact ⟨out, h, d, s.star, s.last_path_time, ho, hh, (Option.some.inj hrun).symm, k1, k2, fun _ => ⟨rfl, rfl⟩,
      fun hf => by rw [hem] at hf; cases hf⟩
  · have hem' : h.isEmpty fltMin = false := by simpa using hem
    rw [if_pos (by rw [hem']; decide), Option.bind_eq_some_iff] at hrun
    obtain ⟨M, hM, hrun⟩ := hrun
    rw [Option.map_eq_some_iff] at hrun
    obtain ⟨st, hst, e⟩ := hrun
    exact ⟨out, h, d, st, now, ho, hh, e.symm, k1, k2, fun hf => absurd hf hem, fun _ => ⟨rfl, ⟨M, hM⟩, hst⟩⟩

/-- What building the tree does to the tree search. -/
theorem build_spec {a b : Star} (h : a.build Q = some b) :
    ∃ goal pose closest r, a.goal = some goal ∧ a.pose = some pose ∧ a.closest_pt = some closest ∧
      buildLookAheadTree ⟨a.children_per_node, a.n_expanded_nodes, a.tree_node_distance, a.max_path_length,
        a.tree_heuristic_weight, goal, pose.1, pose.2⟩ (candidatesAt Q a.cloud goal closest a.cost a.smoothing_margin
        a.max_sensor_range a.min_sensor_range a.children_per_node) = some r ∧
      b = { a with tree := r.tree, closed_set := r.closed_set, path := r.path } := by
  unfold Star.build at h
  rw [Option.bind_eq_some_iff] at h
  obtain ⟨goal, hg, h⟩ := h
  rw [Option.bind_eq_some_iff] at h
  obtain ⟨pose, hp, h⟩ := h
  rw [Option.bind_eq_some_iff] at h
  obtain ⟨c, hc, h⟩ := h
  rw [Option.map_eq_some_iff] at h
  obtain ⟨r, hr, e⟩ := h
  exact ⟨goal, pose, c, r, hg, hp, hc, hr, e.symm⟩

/-- A run changes none of the inputs. -/
structure SameInputs (s s' : LPlanner) : Prop where
  a1 : s'.min_num_points_per_cell = s.min_num_points_per_cell
  a2 : s'.min_sensor_range = s.min_sensor_range
  a3 : s'.max_sensor_range = s.max_sensor_range
  a4 : s'.smoothing_margin = s.smoothing_margin
  a5 : s'.max_point_age = s.max_point_age
  a6 : s'.yaw_deg = s.yaw_deg
  a7 : s'.pitch_deg = s.pitch_deg
  a8 : s'.fovs = s.fovs
  a9 : s'.cost = s.cost
  a10 : s'.position = s.position
  a11 : s'.velocity = s.velocity
  a12 : s'.goal = s.goal
  a13 : s'.prev_goal = s.prev_goal
  a14 : s'.px4 = s.px4
  a15 : s'.mission_speed = s.mission_speed
  a16 : s'.clouds = s.clouds
  b1 : s'.star.children_per_node = s.star.children_per_node
  b2 : s'.star.n_expanded_nodes = s.star.n_expanded_nodes
  b3 : s'.star.tree_node_distance = s.star.tree_node_distance
  b4 : s'.star.max_path_length = s.star.max_path_length
  b5 : s'.star.smoothing_margin = s.star.smoothing_margin
  b6 : s'.star.tree_heuristic_weight = s.star.tree_heuristic_weight
  b7 : s'.star.max_sensor_range = s.star.max_sensor_range
  b8 : s'.star.min_sensor_range = s.star.min_sensor_range
  b9 : s'.star.goal = s.star.goal
  b10 : s'.star.pose = s.star.pose

/-- The same without fields of view, mission speed and sensor clouds. -/
structure SameInputs' (s s' : LPlanner) : Prop where
  a1 : s'.min_num_points_per_cell = s.min_num_points_per_cell
  a2 : s'.min_sensor_range = s.min_sensor_range
  a3 : s'.max_sensor_range = s.max_sensor_range
  a4 : s'.smoothing_margin = s.smoothing_margin
  a5 : s'.max_point_age = s.max_point_age
  a6 : s'.yaw_deg = s.yaw_deg
  a7 : s'.pitch_deg = s.pitch_deg
  a9 : s'.cost = s.cost
  a10 : s'.position = s.position
  a11 : s'.velocity = s.velocity
  a12 : s'.goal = s.goal
  a13 : s'.prev_goal = s.prev_goal
  a14 : s'.px4 = s.px4
  b1 : s'.star.children_per_node = s.star.children_per_node
  b2 : s'.star.n_expanded_nodes = s.star.n_expanded_nodes
  b3 : s'.star.tree_node_distance = s.star.tree_node_distance
  b4 : s'.star.max_path_length = s.star.max_path_length
  b5 : s'.star.smoothing_margin = s.star.smoothing_margin
  b6 : s'.star.tree_heuristic_weight = s.star.tree_heuristic_weight
  b7 : s'.star.max_sensor_range = s.star.max_sensor_range
  b8 : s'.star.min_sensor_range = s.star.min_sensor_range
  b9 : s'.star.goal = s.star.goal
  b10 : s'.star.pose = s.star.pose

theorem SameInputs.weaken {s s' : LPlanner} (h : SameInputs s s') : SameInputs' s s' :=
  ⟨h.a1, h.a2, h.a3, h.a4, h.a5, h.a6, h.a7, h.a9, h.a10, h.a11, h.a12, h.a13, h.a14, h.b1, h.b2, h.b3, h.b4, h.b5, h.b6, h.b7, h.b8, h.b9, h.b10⟩

theorem run_inputs {s s' : LPlanner} {now : ℝ} (hrun : s.run Q now = some s') : SameInputs s s' := by
  obtain ⟨out, h, d, st, t, hs⟩ := run_spec hrun
  rw [hs.eq]
  by_cases hem : h.isEmpty fltMin = true
  · rw [(hs.empty hem).1]
    exact ⟨rfl, rfl, rfl, rfl, rfl, rfl, rfl, rfl, rfl, rfl, rfl, rfl, rfl, rfl, rfl, rfl, rfl, rfl, rfl, rfl, rfl, rfl, rfl, rfl, rfl, rfl⟩
  · obtain ⟨-, -, hb⟩ := hs.planned (by simpa using hem)
    obtain ⟨_, _, _, r, _, _, _, _, e⟩ := build_spec hb
    rw [e]
    exact ⟨rfl, rfl, rfl, rfl, rfl, rfl, rfl, rfl, rfl, rfl, rfl, rfl, rfl, rfl, rfl, rfl, rfl, rfl, rfl, rfl, rfl, rfl, rfl, rfl, rfl, rfl⟩

theorem loopM_append' {S A : Type*} (f : S → A → Option S) (l l' : List A) : ∀ s,
    loopM f s (l ++ l') = (loopM f s l).bind fun t => loopM f t l' := by
  induction l with
  | nil => intro s; rfl
  | cons a l ih =>
    intro s
    show (f s a).bind (fun s' => loopM f s' (l ++ l')) = ((f s a).bind fun s' => loopM f s' l).bind _
    cases f s a with
    | none => rfl
    | some s' => exact ih s'

theorem loopM_snoc {S A : Type*} {f : S → A → Option S} {l : List A} {a : A} {s t : S} (h : loopM f s (l ++ [a]) = some t) :
    ∃ u, loopM f s l = some u ∧ f u a = some t := by
  rw [loopM_append', Option.bind_eq_some_iff] at h
  obtain ⟨u, h1, h2⟩ := h
  refine ⟨u, h1, ?_⟩
  have h3 : (f u a).bind (fun s' => loopM f s' []) = some t := h2
  rw [Option.bind_eq_some_iff] at h3
  obtain ⟨v, h4, h5⟩ := h3
  rw [h4]
  exact h5

/-- The configuration `c` is in force in both parts of the planner. -/
structure InForce (c : LpConfig) (s : LPlanner) : Prop where
  p1 : s.max_sensor_range = c.max_sensor_range
  p2 : s.min_sensor_range = c.min_sensor_range
  p3 : s.cost = c.cost
  p4 : s.max_point_age = c.max_point_age
  p5 : s.min_num_points_per_cell = c.min_num_points_per_cell
  p6 : s.smoothing_margin = c.smoothing_margin
  q1 : s.star.children_per_node = c.children_per_node
  q2 : s.star.n_expanded_nodes = c.n_expanded_nodes
  q3 : s.star.tree_node_distance = c.tree_node_distance
  q4 : s.star.max_path_length = c.max_sensor_range
  q5 : s.star.smoothing_margin = c.smoothing_margin
  q6 : s.star.tree_heuristic_weight = c.tree_heuristic_weight
  q7 : s.star.max_sensor_range = c.max_sensor_range
  q8 : s.star.min_sensor_range = c.min_sensor_range

theorem InForce.same' {c : LpConfig} {s s' : LPlanner} (h : InForce c s) (e : SameInputs' s s') : InForce c s' :=
  ⟨e.a3.trans h.p1, e.a2.trans h.p2, e.a9.trans h.p3, e.a5.trans h.p4, e.a1.trans h.p5, e.a4.trans h.p6, e.b1.trans h.q1,
    e.b2.trans h.q2, e.b3.trans h.q3, e.b4.trans h.q4, e.b5.trans h.q5, e.b6.trans h.q6, e.b7.trans h.q7, e.b8.trans h.q8⟩

theorem configure_inForce (s : LPlanner) (c : LpConfig) : InForce c (s.configure c) := by
  unfold LPlanner.configure
  dsimp only
  split <;> exact ⟨rfl, rfl, rfl, rfl, rfl, rfl, rfl, rfl, rfl, rfl, rfl, rfl, rfl, rfl⟩

theorem configure_goal (s : LPlanner) (c : LpConfig) :
    (s.configure c).goal = { s.goal with z := c.goal_z } ∧
    (s.star.goal = some s.goal → (s.configure c).star.goal = some { s.goal with z := c.goal_z }) ∧
    (s.configure c).position = s.position ∧ (s.configure c).velocity = s.velocity ∧ (s.configure c).yaw_deg = s.yaw_deg ∧
    (s.configure c).pitch_deg = s.pitch_deg ∧ (s.configure c).star.pose = s.star.pose ∧ (s.configure c).prev_goal = s.prev_goal ∧
    (s.configure c).px4 = s.px4 ∧ (s.configure c).cloud = s.cloud ∧ (s.configure c).clouds = s.clouds ∧
    (s.configure c).last_process_time = s.last_process_time ∧ (s.configure c).fovs = s.fovs ∧
    (s.configure c).star.path = s.star.path ∧ (s.configure c).last_path_time = s.last_path_time := by
  unfold LPlanner.configure
  dsimp only
  by_cases h : s.goal.z ≠ c.goal_z
  · rw [if_pos h]
    exact ⟨rfl, fun _ => rfl, rfl, rfl, rfl, rfl, rfl, rfl, rfl, rfl, rfl, rfl, rfl, rfl, rfl⟩
  · rw [if_neg h]
    push Not at h
    have e : s.goal = { s.goal with z := c.goal_z } := by rw [← h]
    refine ⟨e, ?_, rfl, rfl, rfl, rfl, rfl, rfl, rfl, rfl, rfl, rfl, rfl, rfl, rfl⟩
    intro h2
    rw [← e]
    exact h2

/-- What both parts of the planner know after a history. -/
structure Knows (es : List LpEvent) (s : LPlanner) : Prop where
  config : ∀ c, lastConfig es = some c → InForce c s
  state : ∀ p v q, lastState es = some (p, v, q) → s.position = p ∧ s.velocity = v ∧ s.yaw_deg = getYawFromQuaternion q ∧
    s.pitch_deg = getPitchFromQuaternion q ∧ s.star.pose = some (p, v)
  goal : s.goal = goalAfter es
  starGoal : GoalApplied es → s.star.goal = some s.goal
  prevGoal : s.prev_goal = (lastPrevGoal es).getD ⟨0, 0, 0⟩
  px4 : ∀ p, lastPx4 es = some p → s.px4 = p

theorem filterMap_snoc_some {A B : Type*} (f : A → Option B) (l : List A) (a : A) (b : B) (h : f a = some b) :
    ((l ++ [a]).filterMap f).getLast? = some b := by
  rw [List.filterMap_append]
  simp [h]

theorem filterMap_snoc_none {A B : Type*} (f : A → Option B) (l : List A) (a : A) (h : f a = none) :
    ((l ++ [a]).filterMap f).getLast? = (l.filterMap f).getLast? := by
  rw [List.filterMap_append]
  simp [h]

theorem goalApplied_snoc {es : List LpEvent} {e : LpEvent} (h : GoalApplied (es ++ [e])) (h1 : e ≠ .applyGoal) (h2 : ∀ g, e ≠ .goal g) :
    GoalApplied es := by
  obtain ⟨x, hx, hx2⟩ := h
  rw [List.mem_append, List.mem_singleton] at hx
  rcases hx with hx | rfl
  · exact ⟨x, hx, hx2⟩
  · rcases hx2 with h | ⟨g, h⟩
    · exact absurd h h1
    · exact absurd h (h2 g)

theorem knows (es : List LpEvent) : ∀ s, loopM (lpStep Q) lpInit es = some s → Knows es s := by
  induction es using List.reverseRecOn with
  | nil =>
    intro s h
    have e : lpInit = s := Option.some.inj h
    subst e
    refine ⟨?_, ?_, rfl, ?_, rfl, ?_⟩
    · intro c hc; cases hc
    · intro p v q hc; cases hc
    · rintro ⟨x, hx, -⟩; cases hx
    · intro p hp; cases hp
  | append_singleton es e ih =>
    intro s' h
    obtain ⟨s, h1, h2⟩ := loopM_snoc h
    have k := ih s h1
    cases e with
    | state p v q =>
      have e := (Option.some.inj h2).symm
      subst e
      refine ⟨?_, ?_, ?_, ?_, ?_, ?_⟩
      · intro c hc
        unfold lastConfig at hc
        rw [filterMap_snoc_none _ _ _ rfl] at hc
        have := k.config c hc
        exact ⟨this.p1, this.p2, this.p3, this.p4, this.p5, this.p6, this.q1, this.q2, this.q3, this.q4, this.q5, this.q6, this.q7, this.q8⟩
      · intro p' v' q' hc
        unfold lastState at hc
        rw [filterMap_snoc_some _ es (.state p v q) (p, v, q) rfl] at hc
        obtain ⟨rfl, hc2⟩ := Prod.mk.inj (Option.some.inj hc)
        obtain ⟨rfl, rfl⟩ := Prod.mk.inj hc2
        exact ⟨rfl, rfl, rfl, rfl, rfl⟩
      · show s.goal = goalAfter (es ++ [_])
        unfold goalAfter
        rw [List.foldl_append]
        exact k.goal
      · intro hg
        exact k.starGoal (goalApplied_snoc hg (by simp) (by simp))
      · unfold lastPrevGoal
        rw [filterMap_snoc_none _ _ _ rfl]
        exact k.prevGoal
      · intro p' hp
        unfold lastPx4 at hp
        rw [filterMap_snoc_none _ _ _ rfl] at hp
        exact k.px4 p' hp
    | applyGoal =>
      have e := (Option.some.inj h2).symm
      subst e
      refine ⟨?_, ?_, ?_, ?_, ?_, ?_⟩
      · intro c hc
        unfold lastConfig at hc
        rw [filterMap_snoc_none _ _ _ rfl] at hc
        have := k.config c hc
        exact ⟨this.p1, this.p2, this.p3, this.p4, this.p5, this.p6, this.q1, this.q2, this.q3, this.q4, this.q5, this.q6, this.q7, this.q8⟩
      · intro p' v' q' hc
        unfold lastState at hc
        rw [filterMap_snoc_none _ _ _ rfl] at hc
        exact k.state p' v' q' hc
      · show s.goal = goalAfter (es ++ [_])
        unfold goalAfter
        rw [List.foldl_append]
        exact k.goal
      · intro hg
        rfl
      · unfold lastPrevGoal
        rw [filterMap_snoc_none _ _ _ rfl]
        exact k.prevGoal
      · intro p' hp
        unfold lastPx4 at hp
        rw [filterMap_snoc_none _ _ _ rfl] at hp
        exact k.px4 p' hp
    | goal g =>
      have e := (Option.some.inj h2).symm
      subst e
      refine ⟨?_, ?_, ?_, ?_, ?_, ?_⟩
      · intro c hc
        unfold lastConfig at hc
        rw [filterMap_snoc_none _ _ _ rfl] at hc
        have := k.config c hc
        exact ⟨this.p1, this.p2, this.p3, this.p4, this.p5, this.p6, this.q1, this.q2, this.q3, this.q4, this.q5, this.q6, this.q7, this.q8⟩
      · intro p' v' q' hc
        unfold lastState at hc
        rw [filterMap_snoc_none _ _ _ rfl] at hc
        exact k.state p' v' q' hc
      · show g = goalAfter (es ++ [_])
        unfold goalAfter
        rw [List.foldl_append]
        rfl
      · intro hg
        rfl
      · unfold lastPrevGoal
        rw [filterMap_snoc_none _ _ _ rfl]
        exact k.prevGoal
      · intro p' hp
        unfold lastPx4 at hp
        rw [filterMap_snoc_none _ _ _ rfl] at hp
        exact k.px4 p' hp
    | prevGoal g =>
      have e := (Option.some.inj h2).symm
      subst e
      refine ⟨?_, ?_, ?_, ?_, ?_, ?_⟩
      · intro c hc
        unfold lastConfig at hc
        rw [filterMap_snoc_none _ _ _ rfl] at hc
        have := k.config c hc
        exact ⟨this.p1, this.p2, this.p3, this.p4, this.p5, this.p6, this.q1, this.q2, this.q3, this.q4, this.q5, this.q6, this.q7, this.q8⟩
      · intro p' v' q' hc
        unfold lastState at hc
        rw [filterMap_snoc_none _ _ _ rfl] at hc
        exact k.state p' v' q' hc
      · show s.goal = goalAfter (es ++ [_])
        unfold goalAfter
        rw [List.foldl_append]
        exact k.goal
      · intro hg
        exact k.starGoal (goalApplied_snoc hg (by simp) (by simp))
      · unfold lastPrevGoal
        rw [filterMap_snoc_some _ es (.prevGoal g) g rfl]
        rfl
      · intro p' hp
        unfold lastPx4 at hp
        rw [filterMap_snoc_none _ _ _ rfl] at hp
        exact k.px4 p' hp
    | config c =>
      have e := (Option.some.inj h2).symm
      subst e
      obtain ⟨g1, g2, g3, g4, g5, g6, g7, g8, g9, -⟩ := configure_goal s c
      refine ⟨?_, ?_, ?_, ?_, ?_, ?_⟩
      · intro c' hc
        unfold lastConfig at hc
        rw [filterMap_snoc_some _ es (.config c) c rfl] at hc
        obtain rfl := Option.some.inj hc
        exact configure_inForce s c
      · intro p' v' q' hc
        unfold lastState at hc
        rw [filterMap_snoc_none _ _ _ rfl] at hc
        rw [g3, g4, g5, g6, g7]
        exact k.state p' v' q' hc
      · rw [g1]
        unfold goalAfter
        rw [List.foldl_append, k.goal]
        rfl
      · intro hg
        rw [g1]
        exact g2 (k.starGoal (goalApplied_snoc hg (by simp) (by simp)))
      · unfold lastPrevGoal
        rw [filterMap_snoc_none _ _ _ rfl, g8]
        exact k.prevGoal
      · intro p' hp
        unfold lastPx4 at hp
        rw [filterMap_snoc_none _ _ _ rfl] at hp
        rw [g9]
        exact k.px4 p' hp
    | px4 p =>
      have e := (Option.some.inj h2).symm
      subst e
      refine ⟨?_, ?_, ?_, ?_, ?_, ?_⟩
      · intro c hc
        unfold lastConfig at hc
        rw [filterMap_snoc_none _ _ _ rfl] at hc
        have := k.config c hc
        exact ⟨this.p1, this.p2, this.p3, this.p4, this.p5, this.p6, this.q1, this.q2, this.q3, this.q4, this.q5, this.q6, this.q7, this.q8⟩
      · intro p' v' q' hc
        unfold lastState at hc
        rw [filterMap_snoc_none _ _ _ rfl] at hc
        exact k.state p' v' q' hc
      · show s.goal = goalAfter (es ++ [_])
        unfold goalAfter
        rw [List.foldl_append]
        exact k.goal
      · intro hg
        exact k.starGoal (goalApplied_snoc hg (by simp) (by simp))
      · unfold lastPrevGoal
        rw [filterMap_snoc_none _ _ _ rfl]
        exact k.prevGoal
      · intro p' hp
        unfold lastPx4 at hp
        rw [filterMap_snoc_some _ es (.px4 p) p rfl] at hp
        exact Option.some.inj hp
    | _ =>
      have e : SameInputs' s s' := by
        first
          | (have e := (Option.some.inj h2).symm; subst e; exact ⟨rfl, rfl, rfl, rfl, rfl, rfl, rfl, rfl, rfl, rfl, rfl, rfl, rfl, rfl, rfl, rfl, rfl, rfl, rfl, rfl, rfl, rfl, rfl⟩)
          | exact (run_inputs h2).weaken
      refine ⟨?_, ?_, ?_, ?_, ?_, ?_⟩
      · intro c hc
        unfold lastConfig at hc
        rw [filterMap_snoc_none _ _ _ rfl] at hc
        exact (k.config c hc).same' e
      · intro p' v' q' hc
        unfold lastState at hc
        rw [filterMap_snoc_none _ _ _ rfl] at hc
        rw [e.a10, e.a11, e.a6, e.a7, e.b10]
        exact k.state p' v' q' hc
      · rw [e.a12]
        unfold goalAfter
        rw [List.foldl_append]
        exact k.goal
      · intro hg
        rw [e.a12, e.b9]
        exact k.starGoal (goalApplied_snoc hg (by simp) (by simp))
      · unfold lastPrevGoal
        rw [filterMap_snoc_none _ _ _ rfl, e.a13]
        exact k.prevGoal
      · intro p' hp
        unfold lastPx4 at hp
        rw [filterMap_snoc_none _ _ _ rfl] at hp
        rw [e.a14]
        exact k.px4 p' hp

/-! ## Properties -/

/-- **C86, the plan.** After any history in which a configuration, a pose, autopilot parameters and the goal have been given, a run
either makes a plan or, if no direction shows an obstacle farther than the smallest normal float, leaves path and path time as
they were. The plan is the look-ahead tree for exactly the last configuration, pose and goal given, around the obstacle points
this run has processed, and is handed out with the time of the run. -/
theorem C86_plan (es : List LpEvent) (now : ℝ) (s s' : LPlanner) (h : loopM (lpStep Q) lpInit es = some s)
    (hrun : lpStep Q s (.run now) = some s') (c : LpConfig) (hc : lastConfig es = some c) (p v : V3 ℝ) (q : Quat ℝ)
    (hs : lastState es = some (p, v, q)) (px : LpPx4) (hx : lastPx4 es = some px) (hg : GoalApplied es) :
    let closest := closestPoint (goalAfter es) ((lastPrevGoal es).getD ⟨0, 0, 0⟩) p px.xy_cruise
    ((∀ e z v, s'.histogram.getDist e z = some v → v ≤ fltMin) → s'.output.2 = s.output.2) ∧
    ((∃ e z v, s'.histogram.getDist e z = some v ∧ fltMin < v) → ∃ r,
      buildLookAheadTree ⟨c.children_per_node, c.n_expanded_nodes, c.tree_node_distance, c.max_sensor_range,
        c.tree_heuristic_weight, goalAfter es, p, v⟩ (candidatesAt Q s'.cloud (goalAfter es) closest c.cost c.smoothing_margin
        c.max_sensor_range c.min_sensor_range c.children_per_node) = some r ∧ s'.output.2 = (now, r.path) ∧ s'.star.tree = r.tree) ∧
    generateNewHistogram (Histogram.new 6) s'.cloud p = some s'.histogram := by
  have k := knows es s h
  obtain ⟨k1, k2, -, -, k5⟩ := k.state p v q hs
  have kc := k.config c hc
  have kx := k.px4 px hx
  obtain ⟨out, hh, d, st, t, hsp⟩ := run_spec (show s.run Q now = some s' from hrun)
  obtain ⟨hh', e1, d1, d2⟩ := newHistogram_dims out s.position
  rw [hsp.hist] at e1
  obtain rfl := Option.some.inj e1
  have hiff := Histogram.C09_isEmpty_iff hh fltMin (by rw [d1]; norm_num) (by rw [d2]; norm_num)
  have eh : s'.histogram = hh := by rw [hsp.eq]
  have ec : s'.cloud = out := by rw [hsp.eq]
  intro closest
  refine ⟨?_, ?_, ?_⟩
  · intro hall
    rw [eh] at hall
    obtain ⟨a, b⟩ := hsp.empty (hiff.mpr hall)
    rw [hsp.eq, a, b]
    rfl
  · rintro ⟨e, z, w, hw, hlt⟩
    rw [eh] at hw
    have hne : hh.isEmpty fltMin = false := by
      cases hb : hh.isEmpty fltMin with
      | false => rfl
      | true => exact absurd (hiff.mp hb e z w hw) (not_le.mpr hlt)
    obtain ⟨a, -, b⟩ := hsp.planned hne
    obtain ⟨goal, pose, cl, r, b1, b2, b3, b4, b5⟩ := build_spec b
    have b1' : s.star.goal = some goal := b1
    have b2' : s.star.pose = some pose := b2
    rw [k.starGoal hg] at b1'
    rw [k5] at b2'
    obtain rfl := Option.some.inj b1'
    obtain rfl := Option.some.inj b2'
    have b3' : some (closestPoint s.goal s.prev_goal s.position s.px4.xy_cruise) = some cl := b3
    obtain rfl := Option.some.inj b3'
    refine ⟨r, ?_, ?_, ?_⟩
    · dsimp only at b4
      rw [kc.q1, kc.q2, kc.q3, kc.q4, kc.q5, kc.q6, kc.q7, kc.q8, kc.p3, k.goal, k1, k.prevGoal, kx] at b4
      rw [ec]
      exact b4
    · rw [hsp.eq, a, b5]
      rfl
    · rw [hsp.eq, b5]
  · rw [eh, ec, ← k1]
    exact hsp.hist

/-- **C86, obstacle distances.** With `CP_DIST` above 0 each run computes the distances for the autopilot from its own obstacle points
and the pose and fields of view given; otherwise (also if it is not a number) the last ones stay. -/
theorem C86_distances (es : List LpEvent) (now : ℝ) (s s' : LPlanner) (h : loopM (lpStep Q) lpInit es = some s)
    (hrun : lpStep Q s (.run now) = some s') (c : LpConfig) (hc : lastConfig es = some c) (p v : V3 ℝ) (q : Quat ℝ)
    (hs : lastState es = some (p, v, q)) (px : LpPx4) (hx : lastPx4 es = some px) :
    (∀ x, px.cp_dist = .fin x → 0 < x → ∃ comp r, compressHistogramElevation (Histogram.new 6) s'.histogram p = some comp ∧
      obstacleDistanceRanges comp s.fovs p (getYawFromQuaternion q) c.min_sensor_range c.max_sensor_range = some r ∧
      s'.distances = some r) ∧
    ((∀ x, px.cp_dist = .fin x → x ≤ 0) → px.cp_dist ≠ .inf true → s'.distances = s.distances) := by
  have k := knows es s h
  obtain ⟨k1, -, k3, -, -⟩ := k.state p v q hs
  have kc := k.config c hc
  have kx := k.px4 px hx
  obtain ⟨out, hh, d, st, t, hsp⟩ := run_spec (show s.run Q now = some s' from hrun)
  have eh : s'.histogram = hh := by rw [hsp.eq]
  have ed : s'.distances = d := by rw [hsp.eq]
  rw [eh, ed]
  refine ⟨?_, ?_⟩
  · intro x hx1 hx2
    obtain ⟨comp, r, a, b, e⟩ := hsp.sent (by rw [kx, hx1]; simpa [Flt.lt] using hx2)
    rw [k1] at a
    rw [k1, k3, kc.p1, kc.p2] at b
    exact ⟨comp, r, a, b, e⟩
  · intro h1 h2
    refine hsp.kept ?_
    rw [kx]
    cases hcp : px.cp_dist with
    | fin x => simpa [Flt.lt] using h1 x hcp
    | inf b =>
      cases b with
      | true => exact absurd hcp h2
      | false => rfl
    | nan => rfl

/-- **C86, finding.** Every configuration message, whatever parameter it changes, also sets the height of the goal: a goal given at
another height is moved. -/
theorem C86_goal_height_overwritten (es : List LpEvent) (s s' : LPlanner) (c : LpConfig) (h : loopM (lpStep Q) lpInit es = some s)
    (hc : lpStep Q s (.config c) = some s') :
    s'.goal = ⟨(goalAfter es).x, (goalAfter es).y, c.goal_z⟩ ∧ (GoalApplied es → s'.star.goal = some s'.goal) := by
  have k := knows es s h
  obtain rfl := Option.some.inj hc
  obtain ⟨g1, g2, -⟩ := configure_goal s c
  rw [g1, k.goal]
  refine ⟨rfl, fun hg => ?_⟩
  rw [g2 (k.starGoal hg), k.goal]

end Avoidance
