import Verif.NearGoalDefined
import Verif.SeenObstacleProps

/-!
# The local planner accepts no configuration it cannot run with (C121)
-/

namespace Avoidance

variable {Q : PriorityQueue (Candidate ℝ) Candidate.lt}

noncomputable section

/-! ## Specification -/

/-- The ranges of LocalPlannerNode.cfg. -/
structure InRanges (c : LpConfig) : Prop where
  max_range : 0 ≤ c.max_sensor_range ∧ c.max_sensor_range ≤ 40
  min_range : 0 ≤ c.min_sensor_range ∧ c.min_sensor_range ≤ 10
  pitch : 0 ≤ c.cost.pitch ∧ c.cost.pitch ≤ 30
  yaw : 0 ≤ c.cost.yaw ∧ c.cost.yaw ≤ 20
  velocity : 0 ≤ c.cost.velocity ∧ c.cost.velocity ≤ 50000
  obstacle : 0 ≤ c.cost.obstacle ∧ c.cost.obstacle ≤ 30
  heuristic : 0 ≤ c.tree_heuristic_weight ∧ c.tree_heuristic_weight ≤ 50
  goal_z : -20 ≤ c.goal_z ∧ c.goal_z ≤ 20
  age : 0 ≤ c.max_point_age ∧ c.max_point_age ≤ 500
  points : 1 ≤ c.min_num_points_per_cell ∧ c.min_num_points_per_cell ≤ 500
  margin : 0 ≤ c.smoothing_margin ∧ c.smoothing_margin ≤ 90
  children : c.children_per_node ≤ 100
  nodes : c.n_expanded_nodes ≤ 200
  distance : 0 ≤ c.tree_node_distance ∧ c.tree_node_distance ≤ 20

/-- The planner has been given what the node gives it before it plans (a goal, the clouds of at least one camera, a configuration in the ranges of the file, a pose), and the goal is not exactly at one of the
places the tree can plan on from (all but countably many goals, `C35_exceptions_countable`). -/
structure Given (es : List LpEvent) (c : LpConfig) : Prop where
  goal : GoalApplied es
  clouds : lastClouds es ≠ []
  config : lastConfig es = some c
  ranges : InRanges c
  pose : ∃ p v q, lastState es = some (p, v, q) ∧ GoalOffTree c.tree_node_distance c.max_sensor_range p (goalAfter es)

/-! ## C121 -/

/-- **C121.** In every history in which the planner has been given what it needs before each run, and every configuration it runs with has at least one child per node, every run is defined: nothing is accessed
out of range, all loops end and all costs are numbers. -/
theorem C121_always_plans_partial (es : List LpEvent) (h : ∀ pre now post, es = pre ++ .run now :: post → ∃ c, Given pre c ∧ 0 < c.children_per_node) :
    ∃ s, loopM (lpStep Q) lpInit es = some s := by
  induction es using List.reverseRecOn with
  | nil => exact ⟨_, rfl⟩
  | append_singleton es e ih =>
    obtain ⟨s, hs⟩ := ih (fun pre now post hp => h pre now (post ++ [e]) (by rw [hp]; simp))
    have hstep : ∃ s', lpStep Q s e = some s' := by
      cases e with
      | run now =>
        obtain ⟨c, hg, hch⟩ := h es now [] rfl
        obtain ⟨p, v, q, hp, ho⟩ := hg.pose
        exact C86_run_defined_near es now s hs c hg.config p v q hp hg.goal hg.clouds hch hg.ranges.yaw.1 hg.ranges.pitch.1 hg.ranges.velocity.1 (by linarith [hg.ranges.margin.2]) ho
      | _ => exact ⟨_, rfl⟩
    obtain ⟨s', hs'⟩ := hstep
    exact ⟨s', by rw [loopM_append', hs]; show (lpStep Q s e).bind _ = _; rw [hs']; rfl⟩

/-- **C121, violated.** The ranges of the file accept 0 children per node. Then a run after any history in which an obstacle has been seen (enough points of the last clouds in one 2° cell within 48° of the
horizon) is undefined: the element of an empty priority queue is read. -/
theorem C121_zero_children_violated (es : List LpEvent) (now : ℝ) (s : LPlanner) (h : loopM (lpStep Q) lpInit es = some s) (c : LpConfig) (hg : Given es c) (hch : c.children_per_node = 0)
    (hn : 0 < c.n_expanded_nodes) (px : LpPx4) (hx : lastPx4 es = some px) (hmin : 1 / 1000 ≤ c.min_sensor_range) (α β : ℝ) (h1 : -48 ≤ α) (h2 : α < 48)
    (hseen : c.min_num_points_per_cell ≤ newCount (s.cloudParams now) (lastClouds es) (fineCell α β)) : lpStep Q s (.run now) = none := by
  cases hrun : lpStep Q s (.run now) with
  | none => rfl
  | some s' =>
    exfalso
    obtain ⟨p, v, q, hp, -⟩ := hg.pose
    have hob := seen_plans es now s s' h hrun c hg.config hg.ranges.points.1 hmin hg.ranges.max_range.1 α β h1 h2 hseen
    obtain ⟨-, hpl, -⟩ := C86_plan es now s s' h hrun c hg.config p v q hp px hx hg.goal
    obtain ⟨r, hr, -⟩ := hpl hob
    have := C35_zero_children_is_ub ⟨c.children_per_node, c.n_expanded_nodes, c.tree_node_distance, c.max_sensor_range, c.tree_heuristic_weight, goalAfter es, p, v⟩ Q s'.cloud
      (closestPoint (goalAfter es) ((lastPrevGoal es).getD ⟨0, 0, 0⟩) p px.xy_cruise) c.cost c.smoothing_margin c.max_sensor_range c.min_sensor_range hch hn
    rw [this] at hr
    cases hr

/-! ## Examples -/

/-- The parameters of the file as delivered, with the goal at the height of the vehicle. -/
theorem exampleLpConfig_inRanges : InRanges exampleLpConfig := by
  unfold exampleLpConfig
  constructor <;> norm_num

/-- The history of `exampleLp_runs`, with two runs. -/
example : ∃ s, loopM (lpStep Q) lpInit (exampleLpHistory ++ [.run 1, .state ⟨0, 0, 3⟩ ⟨1, 0, 0⟩ ⟨1, 0, 0, 0⟩, .run 2]) = some s := by
  have far : GoalOffTree 2 15 ⟨0, 0, 3⟩ ⟨20, 0, 3⟩ := by
    have hnorm : ((⟨20, 0, 3⟩ : V3 ℝ).minus ⟨0, 0, 3⟩).norm = 20 := by
      unfold V3.norm V3.dot V3.minus
      norm_num
      rw [show (400 : ℝ) = 20 ^ 2 by norm_num, Real.sqrt_sq (by norm_num)]
    exact .of_far (fun e => by have := congrArg V3.x e; norm_num at this) (by rw [hnorm]; norm_num)
  have ok : ∀ pre, (pre = exampleLpHistory ∨ pre = exampleLpHistory ++ [.run 1, .state ⟨0, 0, 3⟩ ⟨1, 0, 0⟩ ⟨1, 0, 0, 0⟩]) → ∃ c, Given pre c ∧ 0 < c.children_per_node := by
    rintro pre (rfl | rfl) <;>
    exact ⟨exampleLpConfig, ⟨⟨.applyGoal, by simp [exampleLpHistory], Or.inl rfl⟩, by unfold lastClouds; simp [exampleLpHistory], rfl, exampleLpConfig_inRanges, _, _, _, rfl, far⟩,
      by norm_num [exampleLpConfig]⟩
  refine C121_always_plans_partial _ ?_
  intro pre now post hp
  apply ok
  have hlen := congrArg List.length hp
  simp only [exampleLpHistory, List.length_append, List.length_cons, List.length_nil] at hlen
  have hpre : pre = List.take pre.length (exampleLpHistory ++ [.run 1, .state ⟨0, 0, 3⟩ ⟨1, 0, 0⟩ ⟨1, 0, 0, 0⟩, .run 2]) := by rw [hp]; simp
  have hget : (exampleLpHistory ++ [.run 1, .state ⟨0, 0, 3⟩ ⟨1, 0, 0⟩ ⟨1, 0, 0, 0⟩, .run 2] : List LpEvent)[pre.length]? = some (.run now) := by rw [hp]; simp
  generalize pre.length = n at hpre hget hlen
  rw [hpre]
  match n, hget with
  | 8, _ => left; rfl
  | 10, _ => right; rfl
  | 0, h => cases h
  | 1, h => cases h
  | 2, h => cases h
  | 3, h => cases h
  | 4, h => cases h
  | 5, h => cases h
  | 6, h => cases h
  | 7, h => cases h
  | 9, h => cases h
  | n + 11, h => omega

/-- The same without children, and a point 5 m to the east. -/
def childlessConfig : LpConfig := { exampleSeenConfig with children_per_node := 0 }
def childlessHistory : List LpEvent :=
  [.applyGoal, .config childlessConfig, .clouds [[⟨.fin 5, .fin 0, .fin 3⟩]], .fov 0 ⟨0, 0, 60, 45⟩,
    .state ⟨0, 0, 3⟩ ⟨1, 0, 0⟩ ⟨1, 0, 0, 0⟩, .goal ⟨20, 0, 3⟩, .prevGoal ⟨0, 0, 3⟩, .px4 ⟨5, 20, 3, .fin 4⟩, .mission .nan]

theorem C121_childless_witness : loopM (lpStep Q) lpInit (childlessHistory ++ [.run 1]) = none := by
  have h : ∃ s, loopM (lpStep Q) lpInit childlessHistory = some s := ⟨_, rfl⟩
  obtain ⟨s, h⟩ := h
  have k := knows _ s h
  obtain ⟨k1, -⟩ := k.state ⟨0, 0, 3⟩ ⟨1, 0, 0⟩ ⟨1, 0, 0, 0⟩ rfl
  have kc := k.config childlessConfig rfl
  have e1 : (s.cloudParams 1).position = ⟨0, 0, 3⟩ := k1
  have e2 : (s.cloudParams 1).min_range = 1 / 5 := kc.p2
  have e3 : (s.cloudParams 1).max_range = 15 := kc.p1
  have hus : usableNew (s.cloudParams 1) (lastClouds childlessHistory) = [⟨5, 0, 3⟩] := by
    unfold usableNew
    have e4 : (lastClouds childlessHistory).flatten.filterMap V3.finite? = [(⟨5, 0, 3⟩ : V3 ℝ)] := rfl
    rw [e1, e2, e3, e4, List.filter_cons_of_pos, List.filter_nil]
    apply decide_eq_true
    unfold distSq
    norm_num
  have hcell : cellOf (s.cloudParams 1) ⟨5, 0, 3⟩ = fineCell 0 90 := by
    have e := C24_cell_of_direction (s.cloudParams 1) 5 0 90 (by norm_num) (by norm_num) (by norm_num)
    rw [e1, east_point] at e
    exact e
  have hnorm : ((⟨20, 0, 3⟩ : V3 ℝ).minus ⟨0, 0, 3⟩).norm = 20 := by
    unfold V3.norm V3.dot V3.minus
    norm_num
    rw [show (400 : ℝ) = 20 ^ 2 by norm_num, Real.sqrt_sq (by norm_num)]
  have hgiven : Given childlessHistory childlessConfig := by
    refine ⟨⟨.applyGoal, by simp [childlessHistory], Or.inl rfl⟩, by unfold lastClouds; simp [childlessHistory], rfl, ?_, _, _, _, rfl,
      .of_far (fun e => by have := congrArg V3.x e; norm_num [childlessHistory, goalAfter] at this) ?_⟩
    · unfold childlessConfig exampleSeenConfig; constructor <;> norm_num
    · show (15 : ℝ) ≤ ((⟨20, 0, 3⟩ : V3 ℝ).minus ⟨0, 0, 3⟩).norm
      rw [hnorm]; norm_num
  have hnone := C121_zero_children_violated childlessHistory 1 s h childlessConfig hgiven rfl (by norm_num [childlessConfig, exampleSeenConfig]) _ rfl (by norm_num [childlessConfig, exampleSeenConfig]) 0 90
    (by norm_num) (by norm_num) (by
      unfold newCount
      rw [hus, List.filter_cons_of_pos (by exact decide_eq_true hcell)]
      simp [childlessConfig, exampleSeenConfig])
  rw [loopM_append', h]
  show (lpStep Q s (.run 1)).bind _ = none
  rw [hnone]
  rfl

end
end Avoidance
