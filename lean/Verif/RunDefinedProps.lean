import Verif.RunPlannerProps
import Verif.ProcessCloudProps

/-!
# The local planner as a whole: no undefined behaviour (C86)
-/

namespace Avoidance

variable {Q : PriorityQueue (Candidate ℝ) Candidate.lt}

theorem compress_dims (input : Histogram ℝ) (hie : input.eDim = 30) (hiz : input.zDim = 60) (position : V3 ℝ) :
    ∃ h', compressHistogramElevation (Histogram.new ALPHA_RES) input position = some h' ∧ 0 < h'.eDim ∧ h'.zDim = 60 := by
  unfold compressHistogramElevation
  rw [compressRows_eq]
  obtain ⟨h', h1, h2, h3, -⟩ := compress_loop input hie hiz position (cellList [13, 14, 15, 16] GRID_LENGTH_Z) []
    (Histogram.new 6) (by norm_num [Histogram.new]) rfl
    (by
      intro c hc
      rw [mem_cellList] at hc
      simp only [GRID_LENGTH_Z, ALPHA_RES, List.mem_cons, List.not_mem_nil, or_false] at hc
      omega)
    (by intro z _; left; exact ⟨rfl, by simp⟩)
  exact ⟨h', h1, by rw [h2]; norm_num [Histogram.new], h3⟩

/-- The last sensor clouds of a history. -/
def lastClouds (es : List LpEvent) : List (List (V3 (Flt ℝ))) :=
  ((es.filterMap fun e => match e with | .clouds l => some l | _ => none).getLast?).getD []

theorem clouds_known (es : List LpEvent) : ∀ s, loopM (lpStep Q) lpInit es = some s → s.clouds = lastClouds es := by
  induction es using List.reverseRecOn with
  | nil =>
    intro s h
    obtain rfl := Option.some.inj h
    rfl
  | append_singleton es e ih =>
    intro s' h
    obtain ⟨s, h1, h2⟩ := loopM_snoc h
    have k := ih s h1
    unfold lastClouds
    cases e with
    | clouds l =>
      obtain rfl := Option.some.inj h2
      rw [filterMap_snoc_some _ es (.clouds l) l rfl]
      rfl
    | run now =>
      rw [filterMap_snoc_none _ _ _ rfl, (run_inputs h2).a16]
      exact k
    | config c =>
      obtain rfl := Option.some.inj h2
      obtain ⟨-, -, -, -, -, -, -, -, -, -, g, -⟩ := configure_goal s c
      rw [filterMap_snoc_none _ _ _ rfl, g]
      exact k
    | _ =>
      obtain rfl := Option.some.inj h2
      rw [filterMap_snoc_none _ _ _ rfl]
      exact k

/-- **C86, no undefined behaviour.** After any history in which the goal has been handed over, at least one sensor cloud is present, and
the last configuration has at least one child per node, weights that are not negative, a smoothing margin up to 180° and a sensor
range that does not reach the goal, a run accesses nothing out of range, its loops end and all costs are numbers. -/
theorem C86_run_defined (es : List LpEvent) (now : ℝ) (s : LPlanner) (h : loopM (lpStep Q) lpInit es = some s) (c : LpConfig)
    (hc : lastConfig es = some c) (p v : V3 ℝ) (q : Quat ℝ) (hs : lastState es = some (p, v, q)) (hg : GoalApplied es)
    (hcl : lastClouds es ≠ []) (h1 : 0 < c.children_per_node) (h2 : 0 ≤ c.cost.yaw) (h3 : 0 ≤ c.cost.pitch)
    (h4 : 0 ≤ c.cost.velocity) (h5 : c.smoothing_margin ≤ 180) (h6 : goalAfter es ≠ p)
    (h7 : c.max_sensor_range ≤ ((goalAfter es).minus p).norm) :
    ∃ s', lpStep Q s (.run now) = some s' := by
  have k := knows es s h
  obtain ⟨k1, k2, -, -, k5⟩ := k.state p v q hs
  have kc := k.config c hc
  have hcl' : s.clouds ≠ [] := by rw [clouds_known es s h]; exact hcl
  show ∃ s', s.run Q now = some s'
  unfold LPlanner.run
  have hp : ∃ out, processPointcloud (s.cloudParams now) s.cloud s.clouds = some out := by
    unfold processPointcloud
    dsimp only
    rw [if_neg hcl']
    exact ⟨_, rfl⟩
  obtain ⟨out, ho⟩ := hp
  rw [ho, Option.bind_some]
  unfold LPlanner.determineStrategy
  obtain ⟨hh, e1, d1, d2⟩ := newHistogram_dims out s.position
  have hcr : ∃ d, (({ s with cloud := out, last_process_time := now } : LPlanner).create2D ((Flt.fin 0).lt s.px4.cp_dist)) =
      some { s with cloud := out, last_process_time := now, histogram := hh, distances := d } := by
    unfold LPlanner.create2D
    dsimp only
    rw [e1, Option.bind_some]
    by_cases hcp : (Flt.fin 0).lt s.px4.cp_dist = true
    · rw [if_pos hcp]
      obtain ⟨comp, c1, c2, c3⟩ := compress_dims hh d1 d2 s.position
      obtain ⟨r, r1, -⟩ := C32_obstacle_distances comp c2 c3 s.fovs s.position s.yaw_deg s.min_sensor_range s.max_sensor_range
      rw [c1, Option.bind_some, r1]
      exact ⟨_, rfl⟩
    · rw [if_neg hcp]
      exact ⟨_, rfl⟩
  obtain ⟨d, hd⟩ := hcr
  dsimp only at hd ⊢
  rw [hd, Option.bind_some]
  dsimp only
  by_cases hem : (!hh.isEmpty fltMin) = true
  · rw [if_pos hem]
    obtain ⟨M, hM, -⟩ := C29_cost_matrix hh d1 d2 s.goal s.position s.velocity s.cost s.smoothing_margin
      (closestPoint s.goal s.prev_goal s.position s.px4.xy_cruise) s.max_sensor_range s.min_sensor_range
      (by rw [k.goal, k1]; exact h6) (by rw [kc.p3]; exact h2) (by rw [kc.p3]; exact h3) (by rw [kc.p3]; exact h4)
      (by rw [kc.p6]; exact h5)
    rw [hM, Option.bind_some]
    unfold Star.build
    dsimp only
    rw [k.starGoal hg, Option.bind_some, k5, Option.bind_some, Option.bind_some]
    obtain ⟨r, hr⟩ := C35_defined ⟨s.star.children_per_node, s.star.n_expanded_nodes, s.star.tree_node_distance,
      s.star.max_path_length, s.star.tree_heuristic_weight, s.goal, p, v⟩ Q out
      (closestPoint s.goal s.prev_goal s.position s.px4.xy_cruise) s.cost s.star.smoothing_margin s.star.max_sensor_range
      s.star.min_sensor_range (by rw [kc.p3]; exact h2) (by rw [kc.p3]; exact h3) (by rw [kc.p3]; exact h4)
      (by rw [kc.q5]; exact h5) (by dsimp only; rw [kc.q1]; exact h1) (by dsimp only; rw [k.goal]; exact h6)
      (by dsimp only; rw [kc.q4, k.goal]; exact h7)
    rw [hr]
    exact ⟨_, rfl⟩
  · rw [if_neg hem]
    exact ⟨_, rfl⟩

/-- The file of parameters. -/
noncomputable def exampleLpConfig : LpConfig := ⟨15, 1 / 5, ⟨3, 25, 6000, 17 / 2⟩, 20, 1, 8, 40, 2, 40, 35, 7 / 2⟩

/-- A history as the node produces it: goal applied, configuration, clouds, pose, goal, parameters. -/
noncomputable def exampleLpHistory : List LpEvent :=
  [.applyGoal, .config exampleLpConfig, .clouds [[⟨.fin 5, .fin 0, .fin 3⟩, ⟨.nan, .fin 0, .fin 0⟩]], .fov 0 ⟨0, 0, 60, 45⟩,
    .state ⟨0, 0, 3⟩ ⟨1, 0, 0⟩ ⟨1, 0, 0, 0⟩, .goal ⟨20, 0, 3⟩, .prevGoal ⟨0, 0, 3⟩, .px4 ⟨5, 20, 3, .fin 4⟩]

/-- Non-vacuity: the planner runs after that history. -/
theorem exampleLp_runs (Q : PriorityQueue (Candidate ℝ) Candidate.lt) :
    ∃ s s', loopM (lpStep Q) lpInit exampleLpHistory = some s ∧ lpStep Q s (.run 1) = some s' := by
  have h : ∃ s, loopM (lpStep Q) lpInit exampleLpHistory = some s := ⟨_, rfl⟩
  obtain ⟨s, h⟩ := h
  have hg : goalAfter exampleLpHistory = ⟨20, 0, 3⟩ := rfl
  have hnorm : ((⟨20, 0, 3⟩ : V3 ℝ).minus ⟨0, 0, 3⟩).norm = 20 := by
    unfold V3.norm V3.dot V3.minus
    norm_num
    rw [show (400 : ℝ) = 20 ^ 2 by norm_num, Real.sqrt_sq (by norm_num)]
  obtain ⟨s', h'⟩ := C86_run_defined exampleLpHistory 1 s h exampleLpConfig rfl ⟨0, 0, 3⟩ ⟨1, 0, 0⟩ ⟨1, 0, 0, 0⟩ rfl
    ⟨.applyGoal, by simp [exampleLpHistory], Or.inl rfl⟩ (by unfold lastClouds; simp [exampleLpHistory]) (by norm_num [exampleLpConfig])
    (by norm_num [exampleLpConfig]) (by norm_num [exampleLpConfig]) (by norm_num [exampleLpConfig]) (by norm_num [exampleLpConfig])
    (by rw [hg]; intro e; have := congrArg V3.x e; norm_num at this) (by rw [hg, hnorm]; norm_num [exampleLpConfig])
  exact ⟨s, s', h, h'⟩

/-- The hypotheses of `C86_plan` are met by it. -/
example : lastConfig exampleLpHistory = some exampleLpConfig ∧ lastState exampleLpHistory = some (⟨0, 0, 3⟩, ⟨1, 0, 0⟩, ⟨1, 0, 0, 0⟩) ∧
    lastPx4 exampleLpHistory = some ⟨5, 20, 3, .fin 4⟩ ∧ GoalApplied exampleLpHistory ∧ goalAfter exampleLpHistory = ⟨20, 0, 3⟩ ∧
    goalAfter (exampleLpHistory ++ [.config exampleLpConfig]) = ⟨20, 0, 7 / 2⟩ :=
  ⟨rfl, rfl, rfl, ⟨.applyGoal, by simp [exampleLpHistory], Or.inl rfl⟩, rfl, rfl⟩

end Avoidance
