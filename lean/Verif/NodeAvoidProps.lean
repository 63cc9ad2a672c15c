import Verif.NodeSpeedProps

/-!
# An obstacle that was seen and the setpoints sent (local_planner_nodelet.cpp, local_planner.cpp, waypoint_generator.cpp)
-/

set_option linter.unusedSectionVars false

namespace Avoidance

variable {Q : PriorityQueue (Candidate ℝ) Candidate.lt}

/-! ## Specification -/

/-- Number of points of a frame, within the sensor range of `p`, in the area of 2° × 2° around the direction `α` above the horizon and `β`
clockwise from north. -/
noncomputable def seenIn (c : LpConfig) (p : V3 ℝ) (frame : List (List (V3 (Flt ℝ)) × FOV ℝ)) (α β : ℝ) : ℕ :=
  (((frame.map (·.1)).flatten.filterMap V3.finite?).filter fun x => (c.min_sensor_range * c.min_sensor_range < distSq p x ∧
    distSq p x < c.max_sensor_range * c.max_sensor_range) ∧ polarToHistogramIndex (cartesianToPolarHistogram x p) 2 = fineCell α β).length

/-- The goal a plan started in this state is made for: the node's, if it is new, else the one the planner has. -/
noncomputable def plannedGoal (s : NodeSt) : V3 ℝ := if s.goals.new_goal then s.goals.goal.val else s.planner.goal

/-- The point is in the 6° area of the direction, seen from `p`. -/
def InArea (p x : V3 ℝ) (α β : ℝ) : Prop :=
  polarToHistogramIndex (cartesianToPolarHistogram x p) 6 = ((coarseCol β : ℤ), (coarseRow α : ℤ))

/-- The cruise speed of a plan started after this history (C33). -/
noncomputable def planSpeed (l : Launch) (c : LpConfig) (pre : List NodeEvent) : ℝ :=
  cruiseVelocity ⟨(newestPx4 l pre).acc_hor, (newestPx4 l pre).jerk_max, (newestPx4 l pre).xy_cruise⟩ c.max_sensor_range (newestMission pre)

/-! ## The plan -/

theorem filterMap_updateCalls {A : Type} (f : LpEvent → Option A) (s : NodeSt) (frame : List (List (V3 (Flt ℝ)) × FOV ℝ)) :
    (updateCalls s frame).filterMap f = [LpEvent.clouds (frame.map (·.1))].filterMap f ++
      (frame.zipIdx.map fun x => LpEvent.fov x.2 x.1.2).filterMap f ++ [LpEvent.state s.position s.velocity s.orientation].filterMap f ++
      (if s.goals.new_goal then [LpEvent.goal s.goals.goal.val, LpEvent.prevGoal s.goals.prev_goal.val] else []).filterMap f ++
      [LpEvent.px4 s.px4, LpEvent.mission s.mission].filterMap f := by
  unfold updateCalls
  rw [List.filterMap_append, List.filterMap_append, List.filterMap_append, List.filterMap_append]

theorem fovs_filterMap {A : Type} (f : LpEvent → Option A) (hf : ∀ i x, f (.fov i x) = none) (l : List ((List (V3 (Flt ℝ)) × FOV ℝ) × ℕ)) :
    (l.map fun x => LpEvent.fov x.2 x.1.2).filterMap f = [] := by
  rw [List.filterMap_eq_nil_iff]
  intro e he
  obtain ⟨x, -, rfl⟩ := List.mem_map.mp he
  exact hf _ _

theorem updateCalls_lasts (cs : List LpEvent) (s : NodeSt) (frame : List (List (V3 (Flt ℝ)) × FOV ℝ)) :
    lastConfig (cs ++ updateCalls s frame) = lastConfig cs ∧
    lastState (cs ++ updateCalls s frame) = some (s.position, s.velocity, s.orientation) ∧
    lastClouds (cs ++ updateCalls s frame) = frame.map (·.1) ∧
    lastPx4 (cs ++ updateCalls s frame) = some s.px4 := by
  have key' : ∀ {B : Type} (a b : List B), b = [] → (a ++ b).getLast? = a.getLast? := by rintro B a b rfl; rw [List.append_nil]
  refine ⟨?_, ?_, ?_, ?_⟩
  · unfold lastConfig
    rw [List.filterMap_append, filterMap_updateCalls, fovs_filterMap _ (fun _ _ => rfl)]
    refine key' _ _ ?_
    cases s.goals.new_goal <;> rfl
  · unfold lastState
    rw [List.filterMap_append, filterMap_updateCalls, fovs_filterMap _ (fun _ _ => rfl)]
    cases s.goals.new_goal <;> simp
  · unfold lastClouds
    rw [List.filterMap_append, filterMap_updateCalls, fovs_filterMap _ (fun _ _ => rfl)]
    cases s.goals.new_goal <;> simp
  · unfold lastPx4
    rw [List.filterMap_append, filterMap_updateCalls, fovs_filterMap _ (fun _ _ => rfl)]
    cases s.goals.new_goal <;> simp

theorem updateCalls_goal (cs : List LpEvent) (s : NodeSt) (frame : List (List (V3 (Flt ℝ)) × FOV ℝ)) :
    goalAfter (cs ++ updateCalls s frame) = if s.goals.new_goal then s.goals.goal.val else goalAfter cs := by
  unfold goalAfter updateCalls
  have fv : ∀ (f : V3 ℝ → LpEvent → V3 ℝ) (_ : ∀ g i x, f g (.fov i x) = g) (l : List ((List (V3 (Flt ℝ)) × FOV ℝ) × ℕ)) (g : V3 ℝ),
      (l.map fun x => LpEvent.fov x.2 x.1.2).foldl f g = g := by
    intro f hf l
    induction l with
    | nil => intro g; rfl
    | cons x l ih =>
      intro g
      rw [List.map_cons, List.foldl_cons, hf]
      exact ih g
  rw [List.foldl_append, List.foldl_append, List.foldl_append, List.foldl_append, List.foldl_append, fv _ (fun _ _ _ => rfl)]
  cases s.goals.new_goal <;> rfl

/-- A plan started after a history, as calls to the planner. -/
theorem plan_calls {u : Uninit} {l : Launch} {pre : List NodeEvent} {s0 s1 : NodeSt} {frame : List (List (V3 (Flt ℝ)) × FOV ℝ)} {t0 : ℝ}
    (h0 : loopM (nodeStep Q) (nodeInit u l) pre = some s0) (h1 : nodeStep Q s0 (.planStart frame t0) = some s1) :
    ∃ x, loopM (lpStep Q) lpInit (s0.calls ++ updateCalls s0 frame) = some x ∧ lpStep Q x (.run t0) = some s1.planner ∧ s1.planning = true ∧
      x.goal = plannedGoal s0 ∧ s1.calls = s0.calls ++ (updateCalls s0 frame ++ [.run t0]) := by
  have k := nodeKnows u l pre s0 h0
  unfold nodeStep at h1
  dsimp only at h1
  split_ifs at h1
  rw [Option.map_eq_some_iff] at h1
  obtain ⟨pl, h2, rfl⟩ := h1
  obtain ⟨x, hx, hr⟩ := loopM_snoc h2
  have hall : loopM (lpStep Q) lpInit (s0.calls ++ updateCalls s0 frame) = some x := by
    rw [loopM_append', k.calls]
    exact hx
  refine ⟨x, hall, hr, rfl, ?_, rfl⟩
  rw [(knows _ x hall).goal, updateCalls_goal, ← (knows _ _ k.calls).goal]
  rfl

/-- The points of a frame counted by the planner. -/
theorem seen_count {cs : List LpEvent} {x : LPlanner} (hx : loopM (lpStep Q) lpInit cs = some x) (frame : List (List (V3 (Flt ℝ)) × FOV ℝ)) (t0 : ℝ)
    (c : LpConfig) (hcf : lastConfig cs = some c) {p v : V3 ℝ} {q : Quat ℝ} (l2 : lastState cs = some (p, v, q))
    (l3 : lastClouds cs = frame.map (·.1)) (α β : ℝ) :
    newCount (x.cloudParams t0) (lastClouds cs) (fineCell α β) = seenIn c p frame α β := by
  have kx := knows _ x hx
  have kc := kx.config c hcf
  obtain ⟨x1, -⟩ := kx.state _ _ _ l2
  rw [l3]
  unfold newCount usableNew seenIn
  rw [List.filter_filter]
  congr 1
  apply List.filter_congr
  intro y _
  have e1 : (x.cloudParams t0).position = p := x1
  have e2 : (x.cloudParams t0).min_range = c.min_sensor_range := kc.p2
  have e3 : (x.cloudParams t0).max_range = c.max_sensor_range := kc.p1
  unfold cellOf
  rw [e1, e2, e3, show ALPHA_RES / 3 = 2 from rfl, ← Bool.decide_and]
  simp only [and_comm]

/-- **C93, the plan.** Let a frame show enough points for one area of 2° × 2°, in a direction up to 48° above or below the horizon, and let
the node start a plan with it (at least as many directions as children per node costing no more than an obstacle at the end of the
sensor range). Then a path is planned, it ends in the newest position received before, and none of the points seen in that
direction (and no other point of that 6° area) lies on the ray on which its first leg starts. -/
theorem C93_first_leg (u : Uninit) (l : Launch) (pre : List NodeEvent) (s0 s1 : NodeSt) (frame : List (List (V3 (Flt ℝ)) × FOV ℝ)) (t0 : ℝ)
    (h0 : loopM (nodeStep Q) (nodeInit u l) pre = some s0) (hplan : nodeStep Q s0 (.planStart frame t0) = some s1) (c : LpConfig)
    (hc : newestConfig pre = some c) (hp : 1 ≤ c.min_num_points_per_cell) (hmin : 1 / 1000 ≤ c.min_sensor_range)
    (hmax : 0 ≤ c.max_sensor_range) (c1 : 0 ≤ c.cost.yaw) (c2 : 0 ≤ c.cost.pitch) (c3 : 0 ≤ c.cost.velocity)
    (hm : c.smoothing_margin ≤ 180) (hg : plannedGoal s0 ≠ (newestPose u pre).1) (hch : 0 < c.children_per_node)
    (hd : 0 < c.tree_node_distance) (α β : ℝ) (h1 : -48 ≤ α) (h2 : α < 48)
    (hseen : c.min_num_points_per_cell ≤ seenIn c (newestPose u pre).1 frame α β)
    (hcheap : ∀ M, getCostMatrix s1.planner.histogram (plannedGoal s0) (newestPose u pre).1 (newestVelocity u pre) c.cost c.smoothing_margin
      s1.planner.closest_pt c.max_sensor_range c.min_sensor_range = some M →
      c.children_per_node ≤ cheapDirections M (distanceCost c.cost c.max_sensor_range)) :
    s1.planner.output.2.1 = t0 ∧ s1.planner.output.2.2.getLast? = some (newestPose u pre).1 ∧
    (∀ rest first, s1.planner.output.2.2 = rest ++ [first, (newestPose u pre).1] →
      (first.minus (newestPose u pre).1).norm = c.tree_node_distance ∧ ∀ x, InArea (newestPose u pre).1 x α β →
      ∀ k, 0 < k → x ≠ (newestPose u pre).1.plus (V3.smul k (first.minus (newestPose u pre).1))) ∧
    (∀ x, polarToHistogramIndex (cartesianToPolarHistogram x (newestPose u pre).1) 2 = fineCell α β → InArea (newestPose u pre).1 x α β) := by
  have k := nodeKnows u l pre s0 h0
  have kp : s0.position = (newestPose u pre).1 := congrArg Prod.fst k.pose
  rw [← kp] at hg hseen hcheap ⊢
  rw [← k.velocity] at hcheap
  obtain ⟨x, hx, hr, -, hgoal, -⟩ := plan_calls h0 hplan
  obtain ⟨l1, l2, l3, l4⟩ := updateCalls_lasts s0.calls s0 frame
  have kx := knows _ x hx
  have hcf : lastConfig (s0.calls ++ updateCalls s0 frame) = some c := by rw [l1, k.config, hc]
  have kc := kx.config c hcf
  obtain ⟨x1, -⟩ := kx.state _ _ _ l2
  have happ : GoalApplied (s0.calls ++ updateCalls s0 frame) := by
    obtain ⟨e, he, h⟩ := k.applied
    exact ⟨e, List.mem_append_left _ he, h⟩
  rw [← hgoal, kx.goal] at hg hcheap
  have hcount := seen_count hx frame t0 c hcf l2 l3 α β
  rw [← hcount] at hseen
  obtain ⟨q1, -, -, M, hM, -⟩ := C87_charged _ t0 x s1.planner hx hr c hcf _ _ _ l2 hp hmin hmax c1 c2 c3 hm hg α β h1 h2 hseen
  have hleg := C87_first_leg _ t0 x s1.planner hx hr c hcf _ _ _ l2 happ hp hmin hmax c1 c2 c3 hm hg hch hd α β h1 h2 hseen M hM (hcheap M hM)
  obtain ⟨-, b, -⟩ := C86_plan _ t0 x s1.planner hx hr c hcf _ _ _ l2 _ l4 happ
  obtain ⟨r, hr1, hr2, -⟩ := b (seen_plans _ t0 x s1.planner hx hr c hcf hp hmin hmax α β h1 h2 hseen)
  refine ⟨q1, ?_, fun rest first hpath => ⟨?_, fun y hy kk hkk => hleg rest first hpath y hy kk hkk⟩, ?_⟩
  · rw [hr2]
    exact (C35_path _ _ r hr1).1
  · rw [hr2] at hpath
    have hch := (C35_path _ _ r hr1).2.1
    dsimp only at hpath
    rw [hpath, List.isChain_append] at hch
    have := (List.isChain_cons_cons.mp hch.2.1).1
    rw [this]
    exact abs_of_pos hd
  · intro y hy
    obtain ⟨-, -, -, b4⟩ := coarse_bounds α β h1 h2
    unfold InArea
    rw [cells_nest, hy, b4]

/-! ## The setpoints -/

/-- Until the hand-over the planner keeps its plan. -/
theorem planner_held (es : List NodeEvent) : ∀ s s', loopM (nodeStep Q) s es = some s' → s.planning = true → (∀ e ∈ es, ¬ IsPlanEnd e) →
    s'.planner = s.planner ∧ s'.planning = true := by
  induction es using List.reverseRecOn with
  | nil => intro s s' h hp _; obtain rfl := Option.some.inj h; exact ⟨rfl, hp⟩
  | append_singleton es e ih =>
    intro s s' h hp hn
    obtain ⟨s1, h1, h2⟩ := loopM_snoc h
    obtain ⟨k1, k2⟩ := ih s s1 h1 hp (fun x hx => hn x (List.mem_append_left _ hx))
    rw [← k1]
    cases e with
    | planStart f t =>
      unfold nodeStep at h2
      dsimp only at h2
      rw [if_pos (Or.inl k2)] at h2
      cases h2
    | planEnd t => exact absurd trivial (hn (.planEnd t) (by simp))
    | config c a b t =>
      unfold nodeStep at h2
      dsimp only at h2
      rw [if_pos k2] at h2
      cases h2
    | timer t =>
      unfold nodeStep at h2
      dsimp only at h2
      split_ifs at h2
      obtain rfl := Option.some.inj h2
      exact ⟨rfl, k2⟩
    | poll t =>
      unfold nodeStep at h2
      dsimp only at h2
      rw [Option.bind_eq_some_iff] at h2
      obtain ⟨t0, -, h2⟩ := h2
      split_ifs at h2 <;> obtain rfl := Option.some.inj h2 <;> exact ⟨rfl, k2⟩
    | send t =>
      unfold nodeStep at h2
      dsimp only at h2
      split_ifs at h2
      obtain rfl := Option.some.inj h2
      obtain ⟨-, -, -, -, -, -, -, -, q9, -, -, -, q13, -⟩ := sendStep_keeps s1 t
      exact ⟨q9, q13.trans k2⟩
    | _ =>
      obtain rfl := Option.some.inj h2
      exact ⟨rfl, k2⟩

/-- After the hand-over the generator has the plan. -/
theorem handed_over {s1 s2 s3 s : NodeSt} {mid after : List NodeEvent} {t : ℝ} (hp : s1.planning = true)
    (hmid : loopM (nodeStep Q) s1 mid = some s2) (hmid' : ∀ e ∈ mid, ¬ IsPlanEnd e) (hend : nodeStep Q s2 (.planEnd t) = some s3)
    (hafter : loopM (nodeStep Q) s3 after = some s) (hafter' : ∀ e ∈ after, ¬ IsPlanEnd e) :
    s.gen.2.planner = ⟨s1.planner.output.2.2, s1.planner.output.2.1, some s1.planner.output.1⟩ := by
  rw [gen_planner_run after _ _ hafter hafter']
  obtain ⟨e1, -⟩ := planner_held mid _ _ hmid hp hmid'
  unfold nodeStep at hend
  dsimp only at hend
  split_ifs at hend
  obtain rfl := Option.some.inj hend
  show infoOf s2.planner = _
  rw [e1]
  rfl

theorem flown_dist (path : List (V3 ℝ)) (i : ℕ) : ((flownNode path i).minus (flownNode path 0)).norm ≤ flownLength path i := by
  induction i with
  | zero =>
    unfold V3.minus V3.norm V3.dot flownLength
    simp
  | succ i ih =>
    rw [flownLength_succ]
    have e : (flownNode path (i + 1)).minus (flownNode path 0) =
        ((flownNode path i).minus (flownNode path 0)).plus ((flownNode path (i + 1)).minus (flownNode path i)) := by
      unfold V3.minus V3.plus
      dsimp only
      congr 1 <;> ring
    rw [e]
    refine (V3.norm_add_le _ _).trans ?_
    linarith

/-- The setpoint on the path is at most the distance travelled away from the end of the first leg. -/
theorem path_point (rest : List (V3 ℝ)) (first p : V3 ℝ) (elapsed v : ℝ) (hD : 0 ≤ elapsed * v) (sp : Option (V3 ℝ))
    (h : getSetpointFromPath (rest ++ [first, p]) elapsed v = some (true, sp)) :
    ∃ q, sp = some q ∧ (q.minus first).norm ≤ elapsed * v := by
  have h0 : flownNode (rest ++ [first, p]) 0 = first := by
    unfold flownNode
    simp [List.getD]
  rcases Nat.lt_or_ge (rest ++ [first, p]).length 3 with hl | hl
  · have : rest = [] := by
      cases rest with
      | nil => rfl
      | cons a r => simp at hl; omega
    subst this
    have e := (C31_edges [first, p] elapsed v).2.1 first p rfl
    have h : getSetpointFromPath [first, p] elapsed v = some (true, sp) := h
    rw [e] at h
    refine ⟨first, ((Prod.mk.inj (Option.some.inj h)).2).symm, ?_⟩
    unfold V3.minus V3.norm V3.dot
    simpa using hD
  · obtain ⟨k, t, i, -, ht, ht1, e1, e2, e3⟩ := C31_setpoint_on_path _ elapsed v hl hD sp h
    refine ⟨_, e1, ?_⟩
    have := flown_dist (rest ++ [first, p]) i
    rw [h0] at this
    rw [← e3, e2]
    generalize flownNode (rest ++ [first, p]) (i + 1) = b at *
    generalize flownNode (rest ++ [first, p]) i = a at *
    have e : (a.plus (V3.smul t (b.minus a))).minus first = (a.minus first).plus (V3.smul t (b.minus a)) := by
      unfold V3.minus V3.plus
      dsimp only
      congr 1 <;> ring
    rw [e]
    refine (V3.norm_add_le _ _).trans ?_
    rw [V3.norm_smul, abs_of_nonneg ht]
    linarith

theorem wgSetpoint_some {pl : PlannerInfo} {now v : ℝ} (hv : pl.cruise_velocity = some v) :
    getSetpointFromPath pl.path (now - pl.last_path_time) v = some (wgSetpoint pl now) := by
  obtain ⟨r, hr⟩ := C31_defined pl.path (now - pl.last_path_time) v
  unfold wgSetpoint
  rw [hv]
  dsimp only
  rw [hr]
  rfl

/-- The speed of the plan handed over. -/
theorem plan_speed {u : Uninit} {l : Launch} {pre : List NodeEvent} {s0 s1 : NodeSt} {frame : List (List (V3 (Flt ℝ)) × FOV ℝ)} {t0 : ℝ}
    (h0 : loopM (nodeStep Q) (nodeInit u l) pre = some s0) (h1 : nodeStep Q s0 (.planStart frame t0) = some s1) (c : LpConfig)
    (hc : newestConfig pre = some c) : s1.planner.output.1 = planSpeed l c pre := by
  have k := nodeKnows u l pre s0 h0
  obtain ⟨x, hx, hr, -⟩ := plan_calls h0 h1
  have hcalls : loopM (lpStep Q) lpInit (s0.calls ++ (updateCalls s0 frame ++ [.run t0])) = some s1.planner := by
    rw [← List.append_assoc, loopM_append', hx]
    show (lpStep Q x (.run t0)).bind (fun y => some y) = _
    rw [hr]
    rfl
  obtain ⟨c1, c2⟩ := calls_px4 s0.calls s0 frame t0
  rw [C86_speed _ _ hcalls c (by rw [updateCalls_config, k.config, hc]) _ c1, c2, k.px4, k.mission]
  rfl

/-- **C93, the setpoint.** Let a frame show an obstacle as in `C93_first_leg`, and let the plan started with it be the newest handed over.
Every setpoint sent while the path is followed (before and after the round), unless the goal is within a metre, is one metre from
the newest position received towards a point that is at most as far from the end `first` of the first leg as the vehicle could have flown since
the plan was started; and no point of the area in which the obstacle was seen lies on the ray from the position of the plan through
`first`. -/
theorem C93_setpoint_partial (u : Uninit) (l : Launch) (pre mid after : List NodeEvent) (s0 s1 s2 s3 s s' : NodeSt)
    (frame : List (List (V3 (Flt ℝ)) × FOV ℝ)) (t0 t now : ℝ)
    (h0 : loopM (nodeStep Q) (nodeInit u l) pre = some s0) (hplan : nodeStep Q s0 (.planStart frame t0) = some s1)
    (hmid : loopM (nodeStep Q) s1 mid = some s2) (hmid' : ∀ e ∈ mid, ¬ IsPlanEnd e) (hend : nodeStep Q s2 (.planEnd t) = some s3)
    (hafter : loopM (nodeStep Q) s3 after = some s) (hafter' : ∀ e ∈ after, ¬ IsPlanEnd e) (hsend : nodeStep Q s (.send now) = some s')
    (m : SentMsg) (hm' : s'.sent = s.sent ++ [m]) (hmode : s.gen.1 = .TRY_PATH) (hmode' : s'.gen.1 = .TRY_PATH)
    (hfar : 1 ≤ (s.goals.goal.val.minus (newestPose u (pre ++ .planStart frame t0 :: (mid ++ .planEnd t :: after))).1).norm)
    (ht : t0 ≤ now) (c : LpConfig) (hv : 0 ≤ planSpeed l c pre)
    (hc : newestConfig pre = some c) (hp : 1 ≤ c.min_num_points_per_cell) (hmin : 1 / 1000 ≤ c.min_sensor_range)
    (hmax : 0 ≤ c.max_sensor_range) (c1 : 0 ≤ c.cost.yaw) (c2 : 0 ≤ c.cost.pitch) (c3 : 0 ≤ c.cost.velocity)
    (hm : c.smoothing_margin ≤ 180) (hg : plannedGoal s0 ≠ (newestPose u pre).1) (hch : 0 < c.children_per_node)
    (hd : 0 < c.tree_node_distance) (α β : ℝ) (h1 : -48 ≤ α) (h2 : α < 48)
    (hseen : c.min_num_points_per_cell ≤ seenIn c (newestPose u pre).1 frame α β)
    (hcheap : ∀ M, getCostMatrix s1.planner.histogram (plannedGoal s0) (newestPose u pre).1 (newestVelocity u pre) c.cost c.smoothing_margin
      s1.planner.closest_pt c.max_sensor_range c.min_sensor_range = some M →
      c.children_per_node ≤ cheapDirections M (distanceCost c.cost c.max_sensor_range)) :
    ∃ first q, OneMetreTowards (newestPose u (pre ++ .planStart frame t0 :: (mid ++ .planEnd t :: after))).1 q m.goto ∧
      (q.minus first).norm ≤ (now - t0) * planSpeed l c pre ∧
      (first.minus (newestPose u pre).1).norm = c.tree_node_distance ∧
      ∀ x, InArea (newestPose u pre).1 x α β → ∀ k, 0 < k →
        x ≠ (newestPose u pre).1.plus (V3.smul k (first.minus (newestPose u pre).1)) := by
  obtain ⟨a1, a2, a3, -⟩ := C93_first_leg u l pre s0 s1 frame t0 h0 hplan c hc hp hmin hmax c1 c2 c3 hm hg hch hd α β h1 h2 hseen hcheap
  obtain ⟨-, -, -, hpl, -⟩ := plan_calls h0 hplan
  have hgen := handed_over hpl hmid hmid' hend hafter hafter'
  rw [a1, plan_speed h0 hplan c hc] at hgen
  have hrun : loopM (nodeStep Q) (nodeInit u l) (pre ++ .planStart frame t0 :: (mid ++ .planEnd t :: after)) = some s := by
    rw [loopM_append', h0]
    show (nodeStep Q s0 (.planStart frame t0)).bind _ = _
    rw [hplan, Option.bind_some, loopM_append', hmid]
    show (nodeStep Q s2 (.planEnd t)).bind _ = _
    rw [hend]
    exact hafter
  obtain ⟨b1, b2⟩ := C91_message u l _ s s' now hrun hsend
  generalize hes : pre ++ NodeEvent.planStart frame t0 :: (mid ++ .planEnd t :: after) = es at *
  by_cases ha : now - newestPlan es ≤ 1 / 2 ∨ now - l.start ≤ 5
  · obtain ⟨d1, d2⟩ := b1 ha
    rw [d2] at hm'
    have hm'' := (List.cons.inj (List.append_cancel_left hm')).1
    have egoto : m.goto = (wgCycle s.gen (newestInput u es s.goals.goal.val s.goals.is_land s.goals.is_takeoff s.goals.desired_velocity)
      now).2.out_goto := by rw [← hm'']
    have hgen' : s.gen = (.TRY_PATH, s.gen.2) := by rw [← hmode]
    have hus : PathUsable s.gen.2.planner now := by
      rw [d1, C37_next_state, hmode] at hmode'
      dsimp only at hmode'
      split_ifs at hmode' with x1 x2 x3
      exact x3
    unfold PathUsable at hus
    have hsome := wgSetpoint_some (pl := s.gen.2.planner) (now := now) (v := planSpeed l c pre) (by rw [hgen])
    have hD : 0 ≤ (now - t0) * planSpeed l c pre := mul_nonneg (by linarith) hv
    have hpath : s.gen.2.planner.path = s1.planner.output.2.2 := by rw [hgen]
    have htime : s.gen.2.planner.last_path_time = t0 := by rw [hgen]
    rw [hpath, htime] at hsome
    have hpair : wgSetpoint s.gen.2.planner now = (true, (wgSetpoint s.gen.2.planner now).2) := by rw [← hus]
    -- the path has two nodes at least
    have hlen : ∃ rest first, s1.planner.output.2.2 = rest ++ [first, (newestPose u pre).1] := by
      rw [hpair] at hsome
      generalize s1.planner.output.2.2 = path at hsome a2
      induction path using List.reverseRecOn with
      | nil => cases a2
      | append_singleton path last _ =>
        have e : last = (newestPose u pre).1 := by simpa using a2
        subst e
        induction path using List.reverseRecOn with
        | nil =>
          have := (C31_edges [(newestPose u pre).1] (now - t0) (planSpeed l c pre)).1 (by simp)
          have hsome : getSetpointFromPath [(newestPose u pre).1] (now - t0) (planSpeed l c pre) = _ := hsome
          rw [this] at hsome
          cases hsome
        | append_singleton path first _ => exact ⟨path, first, by simp⟩
    obtain ⟨rest, first, hrest⟩ := hlen
    have hsome' := hsome
    rw [hrest, hpair] at hsome'
    obtain ⟨q, hq, hq2⟩ := path_point rest first _ _ _ hD _ hsome'
    refine ⟨first, q, ?_, hq2, a3 rest first hrest⟩
    · rw [egoto, hgen']
      have hw := (C37_path_waypoint s.gen.2 (newestInput u es s.goals.goal.val s.goals.is_land s.goals.is_takeoff s.goals.desired_velocity) now).2
      refine (hw ?_).1 (planSpeed l c pre) true q (by rw [hgen]) ?_
      · rintro ⟨-, hx⟩
        have hx : (s.goals.goal.val.minus (newestPose u es).1).norm < 1 := hx
        linarith
      · rw [hpath, htime, hsome, hpair, hq]
  · rw [(b2 ha).2] at hm'
    have := congrArg List.length hm'
    simp at this

/-! ### Finding: straight to the goal -/

/-- **C93, without a usable path.** While the node flies straight to the goal, every setpoint is one metre from the newest position received towards
the goal in force, whatever has been seen and planned. -/
theorem C93_direct (u : Uninit) (l : Launch) (es : List NodeEvent) (s s' : NodeSt) (now : ℝ)
    (h : loopM (nodeStep Q) (nodeInit u l) es = some s) (hs : nodeStep Q s (.send now) = some s') (m : SentMsg)
    (hm : s'.sent = s.sent ++ [m]) (hmode : s.gen.1 = .DIRECT) (hfar : 1 ≤ (s.goals.goal.val.minus (newestPose u es).1).norm) :
    OneMetreTowards (newestPose u es).1 s.goals.goal.val m.goto := by
  obtain ⟨b1, b2⟩ := C91_message u l es s s' now h hs
  by_cases ha : now - newestPlan es ≤ 1 / 2 ∨ now - l.start ≤ 5
  · rw [(b1 ha).2] at hm
    have hm' := (List.cons.inj (List.append_cancel_left hm)).1
    have hgen' : s.gen = (.DIRECT, s.gen.2) := by rw [← hmode]
    rw [← hm', hgen']
    refine (C37_direct_waypoint s.gen.2 (newestInput u es s.goals.goal.val s.goals.is_land s.goals.is_takeoff s.goals.desired_velocity) now).2 ?_
    rintro ⟨-, hx⟩
    have hx : (s.goals.goal.val.minus (newestPose u es).1).norm < 1 := hx
    linarith
  · rw [(b2 ha).2] at hm
    have := congrArg List.length hm
    simp at this

theorem flownLength_chain (d : ℝ) (path : List (V3 ℝ)) (h : path.IsChain fun a b => (a.minus b).norm = d) :
    ∀ k, k + 2 ≤ path.length → flownLength path k = k * d := by
  intro k
  induction k with
  | zero => intro _; simp [flownLength]
  | succ k ih =>
    intro hk
    rw [flownLength_succ, ih (by omega)]
    have hc := List.isChain_iff_getElem.mp h (path.length - 2 - (k + 1)) (by omega)
    have e1 : flownNode path (k + 1) = path[path.length - 2 - (k + 1)] := by
      unfold flownNode
      rw [List.getD_eq_getElem?_getD, List.getElem?_eq_getElem (by omega)]
      rfl
    have e2 : flownNode path k = path[path.length - 2 - (k + 1) + 1] := by
      unfold flownNode
      rw [List.getD_eq_getElem?_getD, show path.length - 2 - k = path.length - 2 - (k + 1) + 1 by omega, List.getElem?_eq_getElem (by omega)]
      rfl
    rw [e1, e2, hc]
    push_cast
    ring

/-- **C93, a plan is used up.** Once the vehicle could have flown as many steps of the tree as the planner expands nodes, less one, a plan with
other than two nodes is not followed any longer: the round of the command loop leaves for the straight way to the goal, although a
plan handed over at most half a second ago counts as new. -/
theorem C93_used_up (u : Uninit) (l : Launch) (pre mid after : List NodeEvent) (s0 s1 s2 s3 s s' : NodeSt)
    (frame : List (List (V3 (Flt ℝ)) × FOV ℝ)) (t0 t now : ℝ)
    (h0 : loopM (nodeStep Q) (nodeInit u l) pre = some s0) (hplan : nodeStep Q s0 (.planStart frame t0) = some s1)
    (hmid : loopM (nodeStep Q) s1 mid = some s2) (hmid' : ∀ e ∈ mid, ¬ IsPlanEnd e) (hend : nodeStep Q s2 (.planEnd t) = some s3)
    (hafter : loopM (nodeStep Q) s3 after = some s) (hafter' : ∀ e ∈ after, ¬ IsPlanEnd e) (hsend : nodeStep Q s (.send now) = some s')
    (hnew : now - t ≤ 1 / 2) (hmode : s.gen.1 = .TRY_PATH) (c : LpConfig) (hc : newestConfig pre = some c)
    (hocc : ∃ e z v, s1.planner.histogram.getDist e z = some v ∧ fltMin < v) (hd : 0 ≤ c.tree_node_distance)
    (htwo : s1.planner.output.2.2.length ≠ 2) (ht : t0 ≤ now) (hv : 0 ≤ planSpeed l c pre)
    (hlong : (c.n_expanded_nodes - 1 : ℝ) * c.tree_node_distance ≤ (now - t0) * planSpeed l c pre)
    (halt : ∀ r, ¬ AltitudeNeeded (newestPose u (pre ++ .planStart frame t0 :: (mid ++ .planEnd t :: after))).1.z s.goals.goal.val.z
      (newestState (pre ++ .planStart frame t0 :: (mid ++ .planEnd t :: after))).2 s.goals.is_takeoff s.goals.is_land r) :
    s'.gen.1 = .DIRECT := by
  have k := nodeKnows u l pre s0 h0
  obtain ⟨x, hx, hr, hpl, -⟩ := plan_calls h0 hplan
  obtain ⟨l1, l2, l3, l4⟩ := updateCalls_lasts s0.calls s0 frame
  have hcf : lastConfig (s0.calls ++ updateCalls s0 frame) = some c := by rw [l1, k.config, hc]
  have happ : GoalApplied (s0.calls ++ updateCalls s0 frame) := by
    obtain ⟨e, he, h⟩ := k.applied
    exact ⟨e, List.mem_append_left _ he, h⟩
  obtain ⟨-, b, -⟩ := C86_plan _ t0 x s1.planner hx hr c hcf _ _ _ l2 _ l4 happ
  obtain ⟨r, hr1, hr2, -⟩ := b hocc
  obtain ⟨-, p2, p3, -⟩ := C35_path _ _ r hr1
  dsimp only at p2 p3
  rw [abs_of_nonneg hd] at p2
  have hgen := handed_over hpl hmid hmid' hend hafter hafter'
  rw [plan_speed h0 hplan c hc, hr2] at hgen
  rw [hr2] at htwo
  dsimp only at hgen htwo
  have hrun : loopM (nodeStep Q) (nodeInit u l) (pre ++ .planStart frame t0 :: (mid ++ .planEnd t :: after)) = some s := by
    rw [loopM_append', h0]
    show (nodeStep Q s0 (.planStart frame t0)).bind _ = _
    rw [hplan, Option.bind_some, loopM_append', hmid]
    show (nodeStep Q s2 (.planEnd t)).bind _ = _
    rw [hend]
    exact hafter
  obtain ⟨b1, -⟩ := C91_message u l _ s s' now hrun hsend
  have hnp : newestPlan (pre ++ .planStart frame t0 :: (mid ++ .planEnd t :: after)) = t := by
    have e : pre ++ NodeEvent.planStart frame t0 :: (mid ++ .planEnd t :: after) = (pre ++ .planStart frame t0 :: mid) ++ [.planEnd t] ++ after := by simp
    rw [e]
    clear hrun b1 halt e hsend hmode hgen hafter
    induction after using List.reverseRecOn with
    | nil => rw [List.append_nil, newestPlan_snoc]
    | append_singleton as a ih =>
      have ih := ih (fun e he => hafter' e (List.mem_append_left _ he))
      rw [← List.append_assoc, newestPlan_snoc]
      have := hafter' a (by simp)
      cases a with
      | planEnd t' => exact absurd trivial this
      | _ => exact ih
  rw [(b1 (Or.inl (by rw [hnp]; exact hnew))).1, C37_next_state, hmode]
  dsimp only
  have hnot : ¬ PathUsable s.gen.2.planner now := ?_
  · split_ifs with x1 x2
    · cases x1
    · exact absurd x2 (halt _)
    · rfl
  intro hus
  unfold PathUsable at hus
  have hsome := wgSetpoint_some (pl := s.gen.2.planner) (now := now) (v := planSpeed l c pre) (by rw [hgen])
  have hpath : s.gen.2.planner.path = r.path := by rw [hgen]
  have htime : s.gen.2.planner.last_path_time = t0 := by rw [hgen]
  rw [hpath, htime] at hsome
  obtain ⟨q1, -, q3⟩ := C31_edges r.path (now - t0) (planSpeed l c pre)
  rcases Nat.lt_or_ge r.path.length 2 with hl | hl
  · rw [q1 hl] at hsome
    rw [← Option.some.inj hsome] at hus
    cases hus
  · obtain ⟨sp, hsp⟩ := q3 (by omega) (by
      rw [flownLength_chain _ _ p2 _ (by omega)]
      have hn : ((r.path.length - 2 : ℕ) : ℝ) ≤ c.n_expanded_nodes - 1 := by
        have : r.path.length - 2 + 1 ≤ c.n_expanded_nodes := by omega
        have : ((r.path.length - 2 : ℕ) : ℝ) + 1 ≤ c.n_expanded_nodes := by exact_mod_cast this
        linarith
      exact (mul_le_mul_of_nonneg_right hn hd).trans hlong)
    rw [hsp] at hsome
    rw [← Option.some.inj hsome] at hus
    cases hus

theorem loopM_one (s : NodeSt) (e : NodeEvent) : loopM (nodeStep Q) s [e] = nodeStep Q s e := by
  show (nodeStep Q s e).bind some = _
  cases nodeStep Q s e <;> rfl

/-- **C93, finding.** In the first five seconds the node sends setpoints without a plan: after a start in a mission, with an obstacle in the frame
that is being planned with, in the straight line between vehicle and goal and within the sensor range, the third setpoint leads one metre
straight towards the obstacle. -/
theorem C93_straight_to_obstacle_violated (Q : PriorityQueue (Candidate ℝ) Candidate.lt) :
    ∃ (u : Uninit) (l : Launch) (es : List NodeEvent) (s s' : NodeSt) (m : SentMsg) (frame : List (List (V3 (Flt ℝ)) × FOV ℝ))
      (cloud : List (V3 (Flt ℝ))) (x : V3 ℝ), loopM (nodeStep Q) (nodeInit u l) es = some s ∧ NodeEvent.planStart frame 1 ∈ es ∧
      cloud ∈ frame.map (·.1) ∧ ⟨.fin x.x, .fin x.y, .fin x.z⟩ ∈ cloud ∧ nodeStep Q s (.send 4) = some s' ∧ s'.sent = s.sent ++ [m] ∧
      x ≠ (newestPose u es).1 ∧ OneMetreTowards (newestPose u es).1 x m.goto ∧
      (x.minus (newestPose u es).1).norm < (s.goals.goal.val.minus (newestPose u es).1).norm := by
  obtain ⟨s, s1, -, -, h1, h2, -⟩ := exampleNode_runs Q
  let o : V3 ℝ := ⟨0, 0, 3⟩
  let q : Quat ℝ := ⟨1, 0, 0, 0⟩
  have hrun1 : loopM (nodeStep Q) (nodeInit exampleUninit exampleLaunch) (exampleNodeStart ++ [.planStart exampleFrame 1]) = some s1 := by
    rw [loopM_append', h1]
    show loopM (nodeStep Q) s [.planStart exampleFrame 1] = _
    rw [loopM_one, h2]
  have facts : s1.cmd = none ∧ s1.start_time = 0 ∧ s1.gen.1 = .LOITER ∧ s1.nav = .mission ∧
      s1.goals.goal = exampleLaunch.goal.some' ∧ s1.goals.is_land = false ∧ s1.goals.is_takeoff = false := by
    obtain rfl := Option.some.inj h1
    unfold nodeStep at h2
    dsimp only at h2
    split_ifs at h2
    rw [Option.map_eq_some_iff] at h2
    obtain ⟨pl, -, rfl⟩ := h2
    refine ⟨rfl, rfl, rfl, ?_, rfl, rfl, rfl⟩
    show navStateOf "AUTO.MISSION" = _
    decide
  obtain ⟨f1, f2, f3, f4, f5, f6, f7⟩ := facts
  obtain ⟨a1, b1, r1a, r1, -, -, g1, -, c1, t1, i1⟩ := early_round (Q := Q) s1 o q 2 f1 (by rw [f2]; norm_num)
  obtain ⟨a2, b2, r2a, r2, -, -, g2, -, c2, t2, i2⟩ := early_round (Q := Q) b1 o q 3 c1 (by rw [t1, f2]; norm_num)
  obtain ⟨a3, b3, r3a, r3, e3, g3a, g3, m3, -⟩ := early_round (Q := Q) b2 o q 4 c2 (by rw [t2, t1, f2]; norm_num)
  rw [i1] at g2
  generalize hi : inputOf { s1 with position := o, orientation := q } false = i at g1 g2
  have inav : i.nav = .mission := by rw [← hi]; exact f4
  have ist : i.stay = false := by rw [← hi]; rfl
  have il : i.is_land = false := by rw [← hi]; exact f6
  have it : i.is_takeoff = false := by rw [← hi]; exact f7
  have alt : ∀ r, ¬ AltitudeNeeded i.position.z i.goal.z i.nav i.is_takeoff i.is_land r := by
    intro r
    unfold AltitudeNeeded
    rw [inav, il, it]
    simp
  have rfull : loopM (nodeStep Q) (nodeInit exampleUninit exampleLaunch) ((exampleNodeStart ++ [.planStart exampleFrame 1]) ++
      ([.pose o q, .timer 2] ++ ([.send 2] ++ ([.pose o q, .timer 3] ++ ([.send 3] ++ [.pose o q, .timer 4]))))) = some a3 := by
    rw [loopM_append', hrun1]
    show (loopM (nodeStep Q) s1 _) = _
    rw [loopM_append', r1a]
    show loopM (nodeStep Q) a1 ([.send 2] ++ _) = _
    rw [loopM_append', loopM_one, r1]
    show (loopM (nodeStep Q) b1 _) = _
    rw [loopM_append', r2a]
    show loopM (nodeStep Q) a2 ([.send 3] ++ _) = _
    rw [loopM_append', loopM_one, r2]
    exact r3a
  have hpl : a3.gen.2.planner = ⟨[], 0, none⟩ := (C91_plan_used _ _ _ a3 rfull).1 (by
    intro e he
    simp [exampleNodeStart] at he
    rcases he with rfl | rfl | rfl | rfl | rfl | rfl | rfl | rfl | rfl | rfl | rfl | rfl | rfl <;> exact fun h => h)
  have hpl1 : b1.gen.2.planner = ⟨[], 0, none⟩ := by
    rw [g3a, g2, (wgCycle_params _ _ _).1] at hpl
    exact hpl
  have x1 : b1.gen.1 = .TRY_PATH := by
    rw [g1, C37_next_state, f3]
    dsimp only
    rw [if_neg (by rw [ist]; simp)]
  have x2 : b2.gen.1 = .DIRECT := by
    rw [g2, C37_next_state, x1]
    dsimp only
    rw [if_neg (by rw [ist]; simp), if_neg (alt _), if_neg]
    intro hus
    unfold PathUsable at hus
    rw [hpl1] at hus
    cases hus
  have hpose : (newestPose exampleUninit ((exampleNodeStart ++ [.planStart exampleFrame 1]) ++
      ([.pose o q, .timer 2] ++ ([.send 2] ++ ([.pose o q, .timer 3] ++ ([.send 3] ++ [.pose o q, .timer 4])))))).1 = o := rfl
  have hgoal : a3.goals.goal.val = ⟨20, 0, 3⟩ := by
    have := ((C91_goal_in_force _ _ _ a3 rfull).1 (by
      intro e he
      simp [exampleNodeStart] at he
      rcases he with rfl | rfl | rfl | rfl | rfl | rfl | rfl | rfl | rfl | rfl | rfl | rfl | rfl <;> exact fun h => h)).1
    rw [this]
    rfl
  have n20 : ((⟨20, 0, 3⟩ : V3 ℝ).minus o).norm = 20 := by
    unfold V3.norm V3.dot V3.minus
    norm_num [o]
    rw [show (400 : ℝ) = 20 ^ 2 by norm_num, Real.sqrt_sq (by norm_num)]
  have n5 : ((⟨5, 0, 3⟩ : V3 ℝ).minus o).norm = 5 := by
    unfold V3.norm V3.dot V3.minus
    norm_num [o]
    rw [show (25 : ℝ) = 5 ^ 2 by norm_num, Real.sqrt_sq (by norm_num)]
  have hne5 : (⟨5, 0, 3⟩ : V3 ℝ) ≠ o := fun e => by have := congrArg V3.x e; norm_num [o] at this
  have hne20 : (⟨20, 0, 3⟩ : V3 ℝ) ≠ o := fun e => by have := congrArg V3.x e; norm_num [o] at this
  have hm3 : b3.sent = a3.sent ++ [messageOf (wgCycle b2.gen (inputOf { b2 with position := o, orientation := q } false) 4).2 4] := by rw [e3]; exact m3
  have hd := C93_direct _ _ _ a3 b3 4 rfull r3 _ hm3 (by rw [g3a]; exact x2) (by rw [hgoal, hpose, n20]; norm_num)
  rw [hgoal, hpose] at hd
  refine ⟨exampleUninit, exampleLaunch, _, a3, b3, _, exampleFrame, _, ⟨5, 0, 3⟩, rfull, by simp, List.mem_map_of_mem List.mem_cons_self, List.mem_cons_self,
    r3, hm3, hne5, ?_, ?_⟩
  · refine ⟨fun e => absurd e hne5, fun _ => ?_⟩
    obtain ⟨d1, kk, d2, d3⟩ := hd.2 hne20
    refine ⟨d1, 4 * kk, by linarith, ?_⟩
    rw [d3, hpose]
    unfold V3.plus V3.smul V3.minus
    dsimp only [o]
    congr 1 <;> ring
  · rw [hpose, hgoal, n5, n20]
    norm_num

/-! ### Planning does not fail -/

/-- **C93, planning is defined.** After any history that configured at least one child per node, weights that are not negative, a smoothing margin up
to 180° and a sensor range that does not reach the goal, the worker, when it is free and has a frame of at least one camera, plans without
accessing anything out of range, without endless loops and with numbers as costs. -/
theorem C93_plan_defined (u : Uninit) (l : Launch) (pre : List NodeEvent) (s0 : NodeSt) (frame : List (List (V3 (Flt ℝ)) × FOV ℝ)) (t0 : ℝ)
    (h0 : loopM (nodeStep Q) (nodeInit u l) pre = some s0) (hfree : s0.planning = false) (hframe : frame ≠ []) (c : LpConfig)
    (hc : newestConfig pre = some c) (hch : 0 < c.children_per_node) (c1 : 0 ≤ c.cost.yaw) (c2 : 0 ≤ c.cost.pitch)
    (c3 : 0 ≤ c.cost.velocity) (hm : c.smoothing_margin ≤ 180) (hg : plannedGoal s0 ≠ (newestPose u pre).1)
    (hfar : c.max_sensor_range ≤ ((plannedGoal s0).minus (newestPose u pre).1).norm) :
    ∃ s1, nodeStep Q s0 (.planStart frame t0) = some s1 := by
  have k := nodeKnows u l pre s0 h0
  have kp : s0.position = (newestPose u pre).1 := congrArg Prod.fst k.pose
  rw [← kp] at hg hfar
  obtain ⟨l1, l2, l3, l4⟩ := updateCalls_lasts s0.calls s0 frame
  have hcf : lastConfig (s0.calls ++ updateCalls s0 frame) = some c := by rw [l1, k.config, hc]
  have happ : GoalApplied (s0.calls ++ updateCalls s0 frame) := by
    obtain ⟨e, he, h⟩ := k.applied
    exact ⟨e, List.mem_append_left _ he, h⟩
  have hgoal : goalAfter (s0.calls ++ updateCalls s0 frame) = plannedGoal s0 := by
    rw [updateCalls_goal, ← (knows _ _ k.calls).goal]
    rfl
  have easy : ∀ (cs : List LpEvent) (p : LPlanner), (∀ e ∈ cs, ∀ t, e ≠ .run t) → ∃ p', loopM (lpStep Q) p cs = some p' := by
    intro cs
    induction cs with
    | nil => intro p _; exact ⟨p, rfl⟩
    | cons e cs ih =>
      intro p hn
      have : ∃ p1, lpStep Q p e = some p1 := by
        cases e with
        | run t => exact absurd rfl (hn _ List.mem_cons_self t)
        | _ => exact ⟨_, rfl⟩
      obtain ⟨p1, h1⟩ := this
      obtain ⟨p', h2⟩ := ih p1 (fun x hx => hn x (List.mem_cons_of_mem _ hx))
      refine ⟨p', ?_⟩
      show (lpStep Q p e).bind _ = _
      rw [h1]
      exact h2
  obtain ⟨x, hx⟩ := easy (updateCalls s0 frame) s0.planner (by
    intro e he t
    unfold updateCalls at he
    simp only [List.mem_append, List.mem_map, List.mem_cons, List.not_mem_nil, or_false] at he
    rcases he with (((rfl | ⟨y, -, rfl⟩) | rfl) | he) | rfl | rfl
    · intro h; cases h
    · intro h; cases h
    · intro h; cases h
    · split_ifs at he
      · simp only [List.mem_cons, List.not_mem_nil, or_false] at he
        rcases he with rfl | rfl <;> (intro h; cases h)
      · cases he
    · intro h; cases h
    · intro h; cases h)
  have hall : loopM (lpStep Q) lpInit (s0.calls ++ updateCalls s0 frame) = some x := by
    rw [loopM_append', k.calls]
    exact hx
  obtain ⟨x', hr⟩ := C86_run_defined _ t0 x hall c hcf _ _ _ l2 happ (by rw [l3]; simpa using hframe) hch c1 c2 c3 hm (by rw [hgoal]; exact hg)
    (by rw [hgoal]; exact hfar)
  unfold nodeStep
  dsimp only
  rw [if_neg (by rw [hfree]; simp [hframe]), loopM_append', hx]
  rw [show (some x).bind (fun t => loopM (lpStep Q) t [LpEvent.run t0]) = (lpStep Q x (.run t0)).bind some from rfl, hr]
  exact ⟨_, rfl⟩

/-! ### Non-vacuity -/

/-- The parameters of `exampleSeenConfig` with another size of the tree. -/
noncomputable def exampleTree (n : ℕ) : LpConfig := { exampleSeenConfig with n_expanded_nodes := n }

/-- The node of `exampleNode_runs` with another size of the tree: it plans, hands over, and sends two setpoints, the second on the path. -/
theorem exampleFlies (Q : PriorityQueue (Candidate ℝ) Candidate.lt) (n : ℕ) :
    ∃ s0 s1 s3 s s', loopM (nodeStep Q) (nodeInit exampleUninit exampleLaunch) [.config (exampleTree n) 10 3 20, .state true "AUTO.MISSION",
        .pose ⟨0, 0, 3⟩ ⟨1, 0, 0, 0⟩, .velocity ⟨1, 0, 0⟩] = some s0 ∧
      nodeStep Q s0 (.planStart exampleFrame 1) = some s1 ∧ nodeStep Q s1 (.planEnd 1) = some s3 ∧
      loopM (nodeStep Q) s3 [.pose ⟨0, 0, 3⟩ ⟨1, 0, 0, 0⟩, .timer 1, .send 1, .pose ⟨0, 0, 3⟩ ⟨1, 0, 0, 0⟩, .timer 1] = some s ∧
      nodeStep Q s (.send 1) = some s' ∧ s.gen.1 = .TRY_PATH ∧ (∃ m, s'.sent = s.sent ++ [m]) ∧
      s.goals.goal.val = ⟨20, 0, 3⟩ ∧ s.goals.is_takeoff = false ∧ s.goals.is_land = false ∧ plannedGoal s0 = ⟨20, 0, 3⟩ := by
  have h : ∃ s0, loopM (nodeStep Q) (nodeInit exampleUninit exampleLaunch) [.config (exampleTree n) 10 3 20, .state true "AUTO.MISSION",
      .pose ⟨0, 0, 3⟩ ⟨1, 0, 0, 0⟩, .velocity ⟨1, 0, 0⟩] = some s0 ∧ s0.planning = false ∧ s0.cmd = none ∧ s0.start_time = 0 ∧
      s0.gen.1 = .LOITER ∧ s0.goals = goalInit exampleUninit exampleLaunch ∧ s0.nav = navStateOf "AUTO.MISSION" := ⟨_, rfl, rfl, rfl, rfl, rfl, rfl, rfl⟩
  obtain ⟨s0, h0, f1, f2, f3, f4, f5, f6⟩ := h
  have n20 : ((⟨20, 0, 3⟩ : V3 ℝ).minus ⟨0, 0, 3⟩).norm = 20 := by
    unfold V3.norm V3.dot V3.minus
    norm_num
    rw [show (400 : ℝ) = 20 ^ 2 by norm_num, Real.sqrt_sq (by norm_num)]
  have hg : plannedGoal s0 = ⟨20, 0, 3⟩ := by
    unfold plannedGoal
    rw [f5]
    rfl
  obtain ⟨s1, h1⟩ := C93_plan_defined _ _ _ s0 exampleFrame 1 h0 f1 (by simp [exampleFrame]) (exampleTree n) rfl (by norm_num [exampleTree, exampleSeenConfig])
    (by norm_num [exampleTree, exampleSeenConfig]) (by norm_num [exampleTree, exampleSeenConfig]) (by norm_num [exampleTree, exampleSeenConfig])
    (by norm_num [exampleTree, exampleSeenConfig]) (by rw [hg]; intro e; have := congrArg V3.x e; change (20 : ℝ) = 0 at this; norm_num at this)
    (by rw [hg]; show _ ≤ ((⟨20, 0, 3⟩ : V3 ℝ).minus ⟨0, 0, 3⟩).norm; rw [n20]; norm_num [exampleTree, exampleSeenConfig])
  have g1 : s1.planning = true ∧ s1.cmd = none ∧ s1.start_time = 0 ∧ s1.gen.1 = .LOITER ∧ s1.goals = { goalInit exampleUninit exampleLaunch with new_goal := false } := by
    unfold nodeStep at h1
    dsimp only at h1
    split_ifs at h1
    rw [Option.map_eq_some_iff] at h1
    obtain ⟨pl, -, rfl⟩ := h1
    exact ⟨rfl, f2, f3, f4, by dsimp only; rw [f5]⟩
  obtain ⟨g1, g2, g3, g4, g5⟩ := g1
  have h3 : ∃ s3, nodeStep Q s1 (.planEnd 1) = some s3 ∧ s3.cmd = none ∧ s3.start_time = 0 ∧ s3.gen.1 = .LOITER ∧
      s3.goals = { goalInit exampleUninit exampleLaunch with new_goal := false } := by
    unfold nodeStep
    dsimp only
    rw [if_pos ⟨g1, g2⟩]
    exact ⟨_, rfl, g2, g3, g4, g5⟩
  obtain ⟨s3, h3, k1, k2, k3, k4⟩ := h3
  obtain ⟨a1, b1, r1a, r1, -, -, e1, -, c1, t1, i1⟩ := early_round (Q := Q) s3 ⟨0, 0, 3⟩ ⟨1, 0, 0, 0⟩ 1 k1 (by rw [k2]; norm_num)
  obtain ⟨a2, b2, r2a, r2, m0, e2a, e2, m2, -⟩ := early_round (Q := Q) b1 ⟨0, 0, 3⟩ ⟨1, 0, 0, 0⟩ 1 c1 (by rw [t1, k2]; norm_num)
  have hall : loopM (nodeStep Q) s3 ([.pose ⟨0, 0, 3⟩ ⟨1, 0, 0, 0⟩, .timer 1] ++ ([.send 1] ++ [.pose ⟨0, 0, 3⟩ ⟨1, 0, 0, 0⟩, .timer 1])) = some a2 := by
    rw [loopM_append', r1a]
    show loopM (nodeStep Q) a1 ([.send 1] ++ _) = _
    rw [loopM_append', loopM_one, r1]
    exact r2a
  obtain ⟨q1, q2, q3, -⟩ := goals_run _ _ _ hall (by
    intro e he
    simp at he
    rcases he with rfl | rfl | rfl | rfl | rfl <;> exact fun h => h)
  refine ⟨s0, s1, s3, a2, b2, h0, h1, h3, hall, r2, ?_, ⟨_, by rw [m0]; exact m2⟩, ?_, ?_, ?_, hg⟩
  · rw [e2a, e1, C37_next_state, k3]
    rfl
  · rw [q1, k4]; rfl
  · rw [q3, k4]; rfl
  · rw [q2, k4]; rfl

/-- A tree of one level gives a path of two nodes. -/
theorem one_level (cfg : StarConfig) (cloud : List (AgedPoint ℝ)) (goal closest : V3 ℝ) (params : CostParams) (margin maxr minr : ℝ) (children : ℕ)
    (hch : 0 < children) (r : StarResult) (hd : cfg.tree_node_distance = 2)
    (hr : buildLookAheadTree cfg (candidatesAt Q cloud goal closest params margin maxr minr children) = some r) (hn : cfg.n_expanded_nodes = 1)
    (hc2 : 0 < cfg.children_per_node) : r.path.length = 2 := by
  obtain ⟨t1, t2, t3, -⟩ := C35_tree _ _ r hr
  obtain ⟨k1, -, k3⟩ := C35_complete _ _ r hr
  have h0 := k1 (by omega)
  have hset : ∀ i ∈ r.closed_set, i = 0 := by
    intro i hi
    have hl : r.closed_set.length ≤ 1 := by omega
    match hm : r.closed_set with
    | [] => rw [hm] at hi; cases hi
    | [a] =>
      rw [hm] at hi h0
      rw [List.mem_singleton] at hi h0
      rw [hi, ← h0]
    | a :: b :: c => rw [hm] at hl; simp at hl
  obtain ⟨root, r1, r2, r3, r4, -⟩ := t1.root
  obtain ⟨cs, c1, c2⟩ := k3 0 h0 root r1
  -- there is a candidate
  have hcand : ∃ c, c ∈ cs := by
    unfold candidatesAt at c1
    rw [Option.bind_eq_some_iff] at c1
    obtain ⟨hh, -, c1⟩ := c1
    rw [Option.bind_eq_some_iff] at c1
    obtain ⟨M, -, c1⟩ := c1
    obtain ⟨b, tl, d1, -⟩ := C27_head_is_cheapest Q M GRID_LENGTH_E GRID_LENGTH_Z children hch (by decide) (by decide)
    rw [d1] at c1
    obtain rfl := Option.some.inj c1
    exact ⟨b, List.mem_cons_self⟩
  obtain ⟨c, hc⟩ := hcand
  have hlen : 2 ≤ r.tree.length := by
    rcases c2 c hc with ⟨m, hm, hm2⟩ | hcc
    · by_contra hlt
      have hl1 : r.tree = [root] := by
        match ht : r.tree with
        | [] => rw [ht] at r1; cases r1
        | [a] => rw [ht] at r1; obtain rfl := Option.some.inj r1; rfl
        | a :: b :: c => rw [ht] at hlt; simp at hlt
      rw [hl1, List.mem_singleton] at hm
      subst hm
      have e := polar_step_norm c.elevation c.azimuth cfg.tree_node_distance m.pos
      have e2 : (m.pos.minus (polarHistogramToCartesian ⟨c.elevation, c.azimuth, cfg.tree_node_distance⟩ m.pos)).norm =
          ((polarHistogramToCartesian ⟨c.elevation, c.azimuth, cfg.tree_node_distance⟩ m.pos).minus m.pos).norm := by
        unfold V3.norm V3.dot V3.minus
        dsimp only
        congr 1
        ring
      rw [e2, e, hd, abs_of_pos (by norm_num)] at hm2
      norm_num at hm2
    · unfold childCount at hcc
      have := List.countP_le_length (p := fun n : TreeNode => decide (n.origin = 0)) (l := r.tree.drop 1)
      rw [List.length_drop] at this
      omega
  have hone : ∃ n1, r.tree[1]? = some n1 := ⟨_, List.getElem?_eq_getElem (by omega)⟩
  obtain ⟨n1, hn1⟩ := hone
  have hopen : n1.closed = false := by
    by_contra hx
    rw [Bool.not_eq_false] at hx
    have := hset 1 ((t2.flag 1 n1 hn1).1 hx)
    omega
  obtain ⟨-, p2, o, ho, hchild⟩ := t1.parent 1 n1 (by norm_num) hn1
  obtain ⟨-, -, q3, nn, -, -, q6, -, q8⟩ := C35_path _ _ r hr
  have := q8 n1 (List.mem_of_getElem? hn1) hopen
  have := hchild.depth
  omega

theorem exampleFlies_seen (n : ℕ) : (exampleTree n).min_num_points_per_cell ≤ seenIn (exampleTree n) ⟨0, 0, 3⟩ exampleFrame 0 90 := by
  have e4 : (exampleFrame.map (·.1)).flatten.filterMap V3.finite? = [(⟨5, 0, 3⟩ : V3 ℝ)] := rfl
  have hcell : polarToHistogramIndex (cartesianToPolarHistogram (⟨5, 0, 3⟩ : V3 ℝ) ⟨0, 0, 3⟩) 2 = fineCell 0 90 := by
    have e := C24_cell_of_direction ⟨[], 0, 0, ⟨0, 0, 3⟩, 0, 0, 0, 0, 0⟩ 5 0 90 (by norm_num) (by norm_num) (by norm_num)
    dsimp only at e
    rw [east_point] at e
    exact e
  unfold seenIn
  rw [e4, List.filter_cons_of_pos, List.filter_nil]
  · simp [exampleTree, exampleSeenConfig]
  · apply decide_eq_true
    refine ⟨?_, hcell⟩
    unfold distSq
    norm_num [exampleTree, exampleSeenConfig]

/-- The events of `exampleFlies`. -/
noncomputable def exampleAfter : List NodeEvent :=
  [.pose ⟨0, 0, 3⟩ ⟨1, 0, 0, 0⟩, .timer 1, .send 1, .pose ⟨0, 0, 3⟩ ⟨1, 0, 0, 0⟩, .timer 1]

/-- The hypotheses of `C93_first_leg`, `C93_plan_defined` and `C93_setpoint_partial` are met, with one point seen 5 m to the east of the vehicle, in the way
to the goal, and a path of two nodes; the setpoint leaves the direction of the goal. -/
example (Q : PriorityQueue (Candidate ℝ) Candidate.lt) : ∃ s' m first q, OneMetreTowards ⟨0, 0, 3⟩ q m.goto ∧ m ∈ NodeSt.sent s' ∧
    (q.minus first).norm ≤ 0 ∧ (first.minus ⟨0, 0, 3⟩).norm = 2 ∧ ∀ x, InArea ⟨0, 0, 3⟩ x 0 90 → ∀ k, 0 < k →
    x ≠ (⟨0, 0, 3⟩ : V3 ℝ).plus (V3.smul k (first.minus ⟨0, 0, 3⟩)) := by
  obtain ⟨s0, s1, s3, s, s', h0, h1, h3, h4, h5, hmode, ⟨m, hm⟩, hgoal, htk, hld, hpg⟩ := exampleFlies Q 1
  have n20 : ((⟨20, 0, 3⟩ : V3 ℝ).minus ⟨0, 0, 3⟩).norm = 20 := by
    unfold V3.norm V3.dot V3.minus
    norm_num
    rw [show (400 : ℝ) = 20 ^ 2 by norm_num, Real.sqrt_sq (by norm_num)]
  obtain ⟨p, p', k1, k2, -, -, -, -, -, M', hM', hch'⟩ := exampleSeen_meets Q
  obtain ⟨x, hx, hr, hpl, hxg, hcalls⟩ := plan_calls h0 h1
  have hcs : s0.calls ++ updateCalls s0 exampleFrame = exampleSeenHistory := by
    obtain rfl := Option.some.inj h0
    rfl
  rw [hcs, k1] at hx
  obtain rfl := Option.some.inj hx
  rw [k2] at hr
  obtain rfl := Option.some.inj hr
  have hgh : goalAfter exampleSeenHistory = ⟨20, 0, 3⟩ := rfl
  rw [hgh] at hM'
  have hv : 0 ≤ planSpeed exampleLaunch (exampleTree 1) [.config (exampleTree 1) 10 3 20, .state true "AUTO.MISSION",
        .pose ⟨0, 0, 3⟩ ⟨1, 0, 0, 0⟩, .velocity ⟨1, 0, 0⟩] := by
    have := (C33_speed_limit ⟨5, 20, 3⟩ 15 .nan (by norm_num) (by norm_num) (by norm_num)).2.2.2.2
    exact le_min (by show (0 : ℝ) ≤ 3; norm_num) this
  have hrun : loopM (nodeStep Q) (nodeInit exampleUninit exampleLaunch) ([.config (exampleTree 1) 10 3 20, .state true "AUTO.MISSION",
        .pose ⟨0, 0, 3⟩ ⟨1, 0, 0, 0⟩, .velocity ⟨1, 0, 0⟩] ++ .planStart exampleFrame 1 :: ([] ++ .planEnd 1 :: exampleAfter)) = some s := by
    rw [loopM_append', h0]
    show (nodeStep Q s0 (.planStart exampleFrame 1)).bind _ = _
    rw [h1]
    show (nodeStep Q s1 (.planEnd 1)).bind _ = _
    rw [h3]
    exact h4
  have haft : ∀ e ∈ exampleAfter, ¬ IsPlanEnd e := by
    intro e he
    simp [exampleAfter] at he
    rcases he with rfl | rfl | rfl | rfl | rfl <;> exact fun h => h
  have hcheap : ∀ M, getCostMatrix s1.planner.histogram (plannedGoal s0) ⟨0, 0, 3⟩ ⟨1, 0, 0⟩ (exampleTree 1).cost (exampleTree 1).smoothing_margin
      s1.planner.closest_pt (exampleTree 1).max_sensor_range (exampleTree 1).min_sensor_range = some M →
      (exampleTree 1).children_per_node ≤ cheapDirections M (distanceCost (exampleTree 1).cost (exampleTree 1).max_sensor_range) := by
    intro M hM
    rw [hpg] at hM
    have hM : some M' = some M := hM'.symm.trans hM
    obtain rfl := Option.some.inj hM
    exact hch'
  have hgne : plannedGoal s0 ≠ ⟨0, 0, 3⟩ := by rw [hpg]; intro e; have := congrArg V3.x e; norm_num at this
  have hfirst := C93_first_leg _ _ _ s0 s1 exampleFrame 1 h0 h1 (exampleTree 1) rfl (by norm_num [exampleTree, exampleSeenConfig])
    (by norm_num [exampleTree, exampleSeenConfig]) (by norm_num [exampleTree, exampleSeenConfig]) (by norm_num [exampleTree, exampleSeenConfig])
    (by norm_num [exampleTree, exampleSeenConfig]) (by norm_num [exampleTree, exampleSeenConfig]) (by norm_num [exampleTree, exampleSeenConfig]) hgne
    (by norm_num [exampleTree, exampleSeenConfig]) (by norm_num [exampleTree, exampleSeenConfig]) 0 90 (by norm_num) (by norm_num) (exampleFlies_seen 1) hcheap
  -- the path has two nodes
  have kk := nodeKnows _ _ _ s0 h0
  obtain ⟨l1, l2, l3, l4⟩ := updateCalls_lasts s0.calls s0 exampleFrame
  rw [hcs] at l1 l2 l3 l4
  have happ : GoalApplied exampleSeenHistory := ⟨.applyGoal, by simp [exampleSeenHistory], Or.inl rfl⟩
  obtain ⟨-, b, -⟩ := C86_plan _ 1 p s1.planner k1 k2 exampleSeenConfig rfl _ _ _ l2 _ l4 happ
  have hcount := seen_count k1 exampleFrame 1 exampleSeenConfig rfl l2 l3 0 90
  have hpos : s0.position = ⟨0, 0, 3⟩ := congrArg Prod.fst kk.pose
  obtain ⟨r, hr1, hr2, -⟩ := b (seen_plans _ 1 p s1.planner k1 k2 exampleSeenConfig rfl (by norm_num [exampleSeenConfig])
    (by norm_num [exampleSeenConfig]) (by norm_num [exampleSeenConfig]) 0 90 (by norm_num) (by norm_num)
    (by rw [hcount, hpos]; exact exampleFlies_seen 1))
  have hlen : r.path.length = 2 := one_level _ _ _ _ _ _ _ _ _ (by norm_num [exampleSeenConfig]) r rfl hr1 rfl (by norm_num [exampleSeenConfig])
  have hgen := handed_over hpl (show loopM (nodeStep Q) s1 [] = some s1 from rfl) (by simp) h3 h4 haft
  rw [hr2] at hgen
  obtain ⟨b1, -⟩ := C91_message _ _ _ s s' 1 hrun h5
  obtain ⟨d1, -⟩ := b1 (Or.inr (by norm_num [exampleLaunch]))
  have hmode' : s'.gen.1 = .TRY_PATH := by
    rw [d1, C37_next_state, hmode]
    dsimp only
    rw [if_neg (by simp [newestInput]), if_neg, if_pos]
    · unfold PathUsable
      match hp : r.path, hlen with
      | [a, b], _ =>
        rw [hp] at hgen
        have hsome := wgSetpoint_some (pl := s.gen.2.planner) (now := 1) (v := s1.planner.output.1) (by rw [hgen])
        rw [show s.gen.2.planner.path = [a, b] by rw [hgen], (C31_edges [a, b] _ _).2.1 a b rfl] at hsome
        rw [← Option.some.inj hsome]
    · unfold AltitudeNeeded newestInput
      dsimp only
      rw [htk, hld]
      have : (newestState ([NodeEvent.config (exampleTree 1) 10 3 20, .state true "AUTO.MISSION", .pose ⟨0, 0, 3⟩ ⟨1, 0, 0, 0⟩, .velocity ⟨1, 0, 0⟩] ++
        .planStart exampleFrame 1 :: ([] ++ .planEnd 1 :: exampleAfter))).2 = .mission := by rfl
      rw [this]
      simp
  obtain ⟨first, q, g1, g2, g3, g4⟩ := C93_setpoint_partial _ _ _ [] exampleAfter s0 s1 s1 s3 s s' exampleFrame 1 1 1 h0 h1 rfl (by simp) h3 h4 haft h5 m hm hmode hmode'
    (by rw [hgoal]; show (1 : ℝ) ≤ ((⟨20, 0, 3⟩ : V3 ℝ).minus ⟨0, 0, 3⟩).norm; rw [n20]; norm_num) le_rfl (exampleTree 1) hv rfl (by norm_num [exampleTree, exampleSeenConfig])
    (by norm_num [exampleTree, exampleSeenConfig]) (by norm_num [exampleTree, exampleSeenConfig]) (by norm_num [exampleTree, exampleSeenConfig])
    (by norm_num [exampleTree, exampleSeenConfig]) (by norm_num [exampleTree, exampleSeenConfig]) (by norm_num [exampleTree, exampleSeenConfig]) hgne
    (by norm_num [exampleTree, exampleSeenConfig]) (by norm_num [exampleTree, exampleSeenConfig]) 0 90 (by norm_num) (by norm_num) (exampleFlies_seen 1) hcheap
  rw [sub_self, zero_mul] at g2
  exact ⟨s', m, first, q, g1, by rw [hm]; simp, g2, g3, g4⟩

/-- The hypotheses of `C93_used_up` are met, with a tree that is not expanded at all. -/
example (Q : PriorityQueue (Candidate ℝ) Candidate.lt) : ∃ s s', nodeStep Q s (.send 1) = some s' ∧ s.gen.1 = .TRY_PATH ∧ s'.gen.1 = .DIRECT := by
  obtain ⟨s0, s1, s3, s, s', h0, h1, h3, h4, h5, hmode, ⟨m, hm⟩, hgoal, htk, hld, hpg⟩ := exampleFlies Q 0
  have hv : 0 ≤ planSpeed exampleLaunch (exampleTree 0) [.config (exampleTree 0) 10 3 20, .state true "AUTO.MISSION",
        .pose ⟨0, 0, 3⟩ ⟨1, 0, 0, 0⟩, .velocity ⟨1, 0, 0⟩] := by
    have := (C33_speed_limit ⟨5, 20, 3⟩ 15 .nan (by norm_num) (by norm_num) (by norm_num)).2.2.2.2
    exact le_min (by show (0 : ℝ) ≤ 3; norm_num) this
  have haft : ∀ e ∈ exampleAfter, ¬ IsPlanEnd e := by
    intro e he
    simp [exampleAfter] at he
    rcases he with rfl | rfl | rfl | rfl | rfl <;> exact fun h => h
  obtain ⟨x, hx, hr, hpl, hxg, hcalls⟩ := plan_calls h0 h1
  have kk := nodeKnows _ _ _ s0 h0
  obtain ⟨l1, l2, l3, l4⟩ := updateCalls_lasts s0.calls s0 exampleFrame
  have hcf : lastConfig (s0.calls ++ updateCalls s0 exampleFrame) = some (exampleTree 0) := by rw [l1, kk.config]; rfl
  have happ : GoalApplied (s0.calls ++ updateCalls s0 exampleFrame) := by
    obtain ⟨e, he, h⟩ := kk.applied
    exact ⟨e, List.mem_append_left _ he, h⟩
  obtain ⟨-, b, -⟩ := C86_plan _ 1 x s1.planner hx hr _ hcf _ _ _ l2 _ l4 happ
  have hcount := seen_count hx exampleFrame 1 _ hcf l2 l3 0 90
  have hpos : s0.position = ⟨0, 0, 3⟩ := congrArg Prod.fst kk.pose
  have hocc := seen_plans _ 1 x s1.planner hx hr _ hcf (by norm_num [exampleTree, exampleSeenConfig])
    (by norm_num [exampleTree, exampleSeenConfig]) (by norm_num [exampleTree, exampleSeenConfig]) 0 90 (by norm_num) (by norm_num)
    (by rw [hcount, hpos]; exact exampleFlies_seen 0)
  obtain ⟨r, hr1, hr2, -⟩ := b hocc
  obtain ⟨-, -, p3, -⟩ := C35_path _ _ r hr1
  refine ⟨s, s', h5, hmode, C93_used_up _ _ _ [] exampleAfter s0 s1 s1 s3 s s' exampleFrame 1 1 1 h0 h1 rfl (by simp) h3 h4 haft h5 (by norm_num) hmode (exampleTree 0) rfl
    hocc (by norm_num [exampleTree, exampleSeenConfig]) ?_ le_rfl hv (by norm_num [exampleTree, exampleSeenConfig]) ?_⟩
  · rw [hr2]
    have p3 : r.path.length ≤ 0 + 1 := p3
    show r.path.length ≠ 2
    omega
  · intro rr
    unfold AltitudeNeeded
    rw [htk, hld]
    have : (newestState ([NodeEvent.config (exampleTree 0) 10 3 20, .state true "AUTO.MISSION", .pose ⟨0, 0, 3⟩ ⟨1, 0, 0, 0⟩, .velocity ⟨1, 0, 0⟩] ++
      .planStart exampleFrame 1 :: ([] ++ .planEnd 1 :: exampleAfter))).2 = .mission := by rfl
    rw [this]
    simp

end Avoidance
