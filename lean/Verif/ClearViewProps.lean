import Verif.NodeAvoidProps
import Verif.LpMemoryProps

/-!
# With a clear view the vehicle is sent straight to the goal (local_planner_nodelet.cpp, local_planner.cpp, waypoint_generator.cpp)
-/

set_option linter.unusedSectionVars false

namespace Avoidance

variable {Q : PriorityQueue (Candidate ℝ) Candidate.lt}

/-! ## Specification -/

/-- No camera measured a point between the minimum and the maximum sensor range of a vehicle at `p` (points without three numbers do not count). -/
def ClearView (c : LpConfig) (p : V3 ℝ) (frame : List (List (V3 (Flt ℝ)) × FOV ℝ)) : Prop :=
  ∀ cam ∈ frame, ∀ x y z : ℝ, ⟨.fin x, .fin y, .fin z⟩ ∈ cam.1 →
    ((⟨x, y, z⟩ : V3 ℝ).minus p).norm ≤ c.min_sensor_range ∨ c.max_sensor_range ≤ ((⟨x, y, z⟩ : V3 ℝ).minus p).norm

/-- Every plan of `later`, which follows on `es`, is started with a clear view. -/
def ClearPlans (u : Uninit) (es later : List NodeEvent) : Prop :=
  ∀ pre frame t post, later = pre ++ .planStart frame t :: post →
    ∃ c, newestConfig (es ++ pre) = some c ∧ 0 ≤ c.max_sensor_range ∧ ClearView c (newestPose u (es ++ pre)).1 frame

/-- The path (goal first, vehicle last) has been flown: it has no leg, or at least two, and the vehicle could have flown all of them but the
first after the time `elapsed` at the speed `v`. -/
def PathFlown (path : List (V3 ℝ)) (elapsed v : ℝ) : Prop :=
  path.length < 2 ∨ (3 ≤ path.length ∧ flownLength path (path.length - 2) ≤ elapsed * v)

/-- The node is not asked to climb, take off or land. -/
def NoClimb (s : NodeSt) : Prop :=
  ¬ AltitudeNeeded s.position.z s.goals.goal.val.z s.nav s.goals.is_takeoff s.goals.is_land false

/-- The rounds of the command loop in `later` find the path planned last before flown (at the cruise speed handed over last), and the vehicle not asked to climb, take off or land. -/
def SendsFree (Q : PriorityQueue (Candidate ℝ) Candidate.lt) (s0 : NodeSt) (later : List NodeEvent) : Prop :=
  ∀ pre t post sp, later = pre ++ .send t :: post → loopM (nodeStep Q) s0 pre = some sp →
    NoClimb sp ∧ PathFlown s0.planner.output.2.2 (t - s0.planner.output.2.1) (sp.gen.2.planner.cruise_velocity.getD 0)

/-! ## A run with a clear view -/

theorem norm_sq_distSq (a b : V3 ℝ) : ((a.minus b).norm) * ((a.minus b).norm) = distSq b a := by
  unfold V3.norm
  rw [Real.mul_self_sqrt (by unfold V3.dot; nlinarith [sq_nonneg (a.minus b).x, sq_nonneg (a.minus b).y, sq_nonneg (a.minus b).z])]
  unfold V3.dot V3.minus distSq
  ring

/-- With a clear view no point of the frame is used. -/
theorem clear_unusable {c : LpConfig} {x : LPlanner} {now : ℝ} {frame : List (List (V3 (Flt ℝ)) × FOV ℝ)} (h1 : x.min_sensor_range = c.min_sensor_range)
    (h2 : x.max_sensor_range = c.max_sensor_range) (hm : 0 ≤ c.max_sensor_range) (hv : ClearView c x.position frame) (p : V3 ℝ) :
    p ∉ usableNew (x.cloudParams now) (frame.map (·.1)) := by
  intro hp
  unfold usableNew at hp
  rw [List.mem_filter] at hp
  obtain ⟨hp1, hp2⟩ := hp
  obtain ⟨d1, d2⟩ := of_decide_eq_true hp2
  have d1 : x.min_sensor_range * x.min_sensor_range < distSq x.position p := d1
  have d2 : distSq x.position p < x.max_sensor_range * x.max_sensor_range := d2
  rw [h1, ← norm_sq_distSq] at d1
  rw [h2, ← norm_sq_distSq] at d2
  obtain ⟨q, hq, hqp⟩ := List.mem_filterMap.mp hp1
  obtain ⟨l, hl, hql⟩ := List.mem_flatten.mp hq
  obtain ⟨cam, hcam, rfl⟩ := List.mem_map.mp hl
  have hq' : q = ⟨.fin p.x, .fin p.y, .fin p.z⟩ := by
    unfold V3.finite? at hqp
    obtain ⟨qx, qy, qz⟩ := q
    cases qx <;> cases qy <;> cases qz <;> simp at hqp
    subst hqp
    rfl
  rw [hq'] at hql
  have hn := V3.norm_nonneg (p.minus x.position)
  rcases hv cam hcam p.x p.y p.z hql with h | h
  · have h : (p.minus x.position).norm ≤ c.min_sensor_range := h
    nlinarith
  · have h : c.max_sensor_range ≤ (p.minus x.position).norm := h
    nlinarith

/-- A histogram of no points is empty. -/
theorem histogram_of_nothing (p : V3 ℝ) (h : Histogram ℝ) (hh : generateNewHistogram (Histogram.new ALPHA_RES) [] p = some h) :
    h.isEmpty fltMin = true := by
  obtain ⟨h', e1, e2⟩ := C25_mean_distance [] p
  obtain ⟨h'', e3, d1, d2⟩ := newHistogram_dims [] p
  have e1' : generateNewHistogram (Histogram.new ALPHA_RES) [] p = some h' := e1
  rw [hh] at e3 e1'
  obtain rfl := Option.some.inj e3
  obtain rfl := Option.some.inj e1'
  rw [Histogram.C09_isEmpty_iff h fltMin (by rw [d1]; norm_num) (by rw [d2]; norm_num)]
  intro a b v hv
  rw [(Histogram.C09_get_total_periodic h (by rw [d1]; norm_num) (by rw [d2]; norm_num) a b).1] at hv
  obtain rfl := Option.some.inj hv
  have a1 := Int.emod_nonneg a (by rw [d1]; norm_num : (h.eDim : ℤ) ≠ 0)
  have a2 := Int.emod_lt_of_pos a (by rw [d1]; norm_num : (0 : ℤ) < h.eDim)
  have b1 := Int.emod_nonneg b (by rw [d2]; norm_num : (h.zDim : ℤ) ≠ 0)
  have b2 := Int.emod_lt_of_pos b (by rw [d2]; norm_num : (0 : ℤ) < h.zDim)
  have := e2 (a % h.eDim).toNat (b % h.zDim).toNat (by omega) (by omega)
  rw [if_pos (by unfold pointsInCell; rfl), getDist_nat (by omega) (by omega)] at this
  rw [Option.some.inj this]
  unfold fltMin
  positivity

/-- A run with a clear view and nothing remembered plans nothing. -/
theorem run_sees_nothing {x x' : LPlanner} {now : ℝ} (h : lpStep Q x (.run now) = some x') (hc : x'.cloud = []) :
    x'.star.path = x.star.path ∧ x'.last_path_time = x.last_path_time := by
  obtain ⟨out, hh, d, st, t, hsp⟩ := run_spec (show x.run Q now = some x' from h)
  have e : out = [] := by rw [hsp.eq] at hc; exact hc
  rw [e] at hsp
  obtain ⟨e1, e2⟩ := hsp.empty (histogram_of_nothing _ _ hsp.hist)
  rw [hsp.eq]
  exact ⟨by rw [← e1], e2⟩

/-- What the planner keeps apart from runs. -/
theorem setters_keep {cs : List LpEvent} : ∀ {x x' : LPlanner}, loopM (lpStep Q) x cs = some x' → (∀ e ∈ cs, ∀ t, e ≠ .run t) →
    x'.cloud = x.cloud ∧ x'.star.path = x.star.path ∧ x'.last_path_time = x.last_path_time ∧ x'.last_process_time = x.last_process_time := by
  induction cs with
  | nil => intro x x' h _; obtain rfl := Option.some.inj h; exact ⟨rfl, rfl, rfl, rfl⟩
  | cons e cs ih =>
    intro x x' h hn
    have h : (lpStep Q x e).bind (fun t => loopM (lpStep Q) t cs) = some x' := h
    rw [Option.bind_eq_some_iff] at h
    obtain ⟨y, h1, h2⟩ := h
    obtain ⟨k1, k2, k3, k4⟩ := ih h2 (fun a ha => hn a (List.mem_cons_of_mem _ ha))
    have hy : y.cloud = x.cloud ∧ y.star.path = x.star.path ∧ y.last_path_time = x.last_path_time ∧ y.last_process_time = x.last_process_time := by
      cases e with
      | run t => exact absurd rfl (hn _ List.mem_cons_self t)
      | config c =>
        obtain rfl := Option.some.inj h1
        unfold LPlanner.configure
        dsimp only
        split_ifs <;> exact ⟨rfl, rfl, rfl, rfl⟩
      | _ => obtain rfl := Option.some.inj h1; exact ⟨rfl, rfl, rfl, rfl⟩
    exact ⟨k1.trans hy.1, k2.trans hy.2.1, k3.trans hy.2.2.1, k4.trans hy.2.2.2⟩

theorem updateCalls_no_run (s : NodeSt) (frame : List (List (V3 (Flt ℝ)) × FOV ℝ)) : ∀ e ∈ updateCalls s frame, ∀ t, e ≠ .run t := by
  intro e he t
  unfold updateCalls at he
  simp only [List.mem_append, List.mem_map, List.mem_cons, List.not_mem_nil, or_false] at he
  rcases he with (((rfl | ⟨y, -, rfl⟩) | rfl) | he) | rfl | rfl
  · intro h; cases h
  · intro h; cases h
  · intro h; cases h
  · split_ifs at he
    · simp only [List.mem_cons, List.not_mem_nil, or_false] at he
      rcases he with rfl | rfl <;> (intro h; cases h)
    · cases he
  · intro h; cases h
  · intro h; cases h

/-- A plan started with a clear view: the memory afterwards holds only what was in it before (and may be kept), older by the time since the last run. -/
theorem clear_plan {u : Uninit} {l : Launch} {pre : List NodeEvent} {s0 s1 : NodeSt} {frame : List (List (V3 (Flt ℝ)) × FOV ℝ)} {t0 : ℝ}
    (h0 : loopM (nodeStep Q) (nodeInit u l) pre = some s0) (h1 : nodeStep Q s0 (.planStart frame t0) = some s1) (c : LpConfig)
    (hc : newestConfig pre = some c) (hm : 0 ≤ c.max_sensor_range) (hv : ClearView c (newestPose u pre).1 frame) :
    (∀ a ∈ s1.planner.cloud, ∃ o ∈ s0.planner.cloud, o.age < c.max_point_age ∧ a.age = o.age + (t0 - s0.planner.last_process_time)) ∧
    (s1.planner.cloud = [] → s1.planner.star.path = s0.planner.star.path ∧ s1.planner.last_path_time = s0.planner.last_path_time) ∧
    s1.planner.last_process_time = t0 := by
  have k := nodeKnows u l pre s0 h0
  obtain ⟨x, hx, hr, -⟩ := plan_calls h0 h1
  obtain ⟨l1, l2, l3, l4⟩ := updateCalls_lasts s0.calls s0 frame
  have kx := knows _ x hx
  have kc := kx.config c (by rw [l1, k.config, hc])
  obtain ⟨x1, -⟩ := kx.state _ _ _ l2
  have hx' : loopM (lpStep Q) s0.planner (updateCalls s0 frame) = some x := by
    rw [loopM_append', k.calls] at hx
    exact hx
  obtain ⟨y1, y2, y3, y4⟩ := setters_keep hx' (updateCalls_no_run s0 frame)
  have kcl := clouds_known _ x hx
  rw [l3] at kcl
  have kp : s0.position = (newestPose u pre).1 := congrArg Prod.fst k.pose
  refine ⟨?_, ?_, ?_⟩
  · intro a ha
    rcases cloud_members hr a ha with ⟨-, h⟩ | ⟨o, ho, -, h2, h3⟩
    · rw [kcl] at h
      exact absurd h (clear_unusable kc.p2 kc.p1 hm (by rw [x1, kp]; exact hv) a.p)
    · refine ⟨o, by rw [← y1]; exact ho, ?_, by rw [h2, y4]⟩
      have h3 : o.age < x.max_point_age := h3.2.1
      rw [kc.p4] at h3
      exact h3
  · intro hcl
    obtain ⟨e1, e2⟩ := run_sees_nothing hr hcl
    rw [e1, e2, y2, y3]
    exact ⟨rfl, rfl⟩
  · obtain ⟨out, hh, d, st, t, hsp⟩ := run_spec (show x.run Q t0 = some s1.planner from hr)
    rw [hsp.eq]

/-! ## The path of an idle worker is the one followed -/

/-- Events other than starting a plan keep the planner's path and memory; handing over a plan hands over this path. -/
theorem path_step {s s' : NodeSt} {e : NodeEvent} (he : ∀ f t, e ≠ .planStart f t) (h : nodeStep Q s e = some s') :
    (s'.planner.cloud = s.planner.cloud ∧ s'.planner.star.path = s.planner.star.path ∧ s'.planner.last_path_time = s.planner.last_path_time ∧
      s'.planner.last_process_time = s.planner.last_process_time) ∧
    ((s'.planning = s.planning ∧ s'.gen.2.planner = s.gen.2.planner) ∨
      (s.planning = true ∧ s'.planning = false ∧ s'.gen.2.planner.path = s.planner.star.path ∧ s'.gen.2.planner.last_path_time = s.planner.last_path_time)) := by
  by_cases hend : IsPlanEnd e
  · cases e with
    | planEnd t =>
      unfold nodeStep at h
      dsimp only at h
      split_ifs at h with hp
      obtain rfl := Option.some.inj h
      exact ⟨⟨rfl, rfl, rfl, rfl⟩, Or.inr ⟨hp.1, rfl, rfl, rfl⟩⟩
    | _ => exact absurd hend (fun h => h)
  have hg := gen_planner_step hend h
  rw [hg]
  cases e with
  | planEnd t => exact absurd trivial hend
  | planStart f t => exact absurd rfl (he f t)
  | config c a b t =>
    unfold nodeStep at h
    dsimp only at h
    split_ifs at h
    obtain rfl := Option.some.inj h
    have := setters_keep (Q := Q) (cs := [.config c]) (x := s.planner) (x' := s.planner.configure c) rfl (by intro e he t; simp at he; rw [he]; intro h; cases h)
    exact ⟨this, Or.inl ⟨rfl, rfl⟩⟩
  | timer t =>
    unfold nodeStep at h
    dsimp only at h
    split_ifs at h
    obtain rfl := Option.some.inj h
    exact ⟨⟨rfl, rfl, rfl, rfl⟩, Or.inl ⟨rfl, rfl⟩⟩
  | poll t =>
    unfold nodeStep at h
    dsimp only at h
    rw [Option.bind_eq_some_iff] at h
    obtain ⟨t0, -, h⟩ := h
    split_ifs at h <;> obtain rfl := Option.some.inj h <;> exact ⟨⟨rfl, rfl, rfl, rfl⟩, Or.inl ⟨rfl, rfl⟩⟩
  | send t =>
    unfold nodeStep at h
    dsimp only at h
    split_ifs at h
    obtain rfl := Option.some.inj h
    obtain ⟨-, -, -, -, -, -, -, -, q9, -, -, -, q13, -⟩ := sendStep_keeps s t
    rw [q9, q13]
    exact ⟨⟨rfl, rfl, rfl, rfl⟩, Or.inl ⟨rfl, rfl⟩⟩
  | _ => obtain rfl := Option.some.inj h; exact ⟨⟨rfl, rfl, rfl, rfl⟩, Or.inl ⟨rfl, rfl⟩⟩

/-- In every run of the node: while no plan is being made, the path followed is the planner's. -/
theorem idle_path (u : Uninit) (l : Launch) (es : List NodeEvent) : ∀ s, loopM (nodeStep Q) (nodeInit u l) es = some s → s.planning = false →
    s.gen.2.planner.path = s.planner.star.path ∧ s.gen.2.planner.last_path_time = s.planner.last_path_time := by
  induction es using List.reverseRecOn with
  | nil =>
    intro s h _
    obtain rfl := Option.some.inj h
    exact ⟨rfl, rfl⟩
  | append_singleton es e ih =>
    intro s' h hp
    obtain ⟨s, h1, h2⟩ := loopM_snoc h
    by_cases he : ∃ f t, e = .planStart f t
    · obtain ⟨f, t, rfl⟩ := he
      obtain ⟨-, -, -, hpl, -⟩ := plan_calls h1 h2
      rw [hpl] at hp
      cases hp
    · push Not at he
      obtain ⟨⟨-, k2, k3, -⟩, k | k⟩ := path_step he h2
      · rw [k2, k3, k.2]
        exact ih s h1 (by rw [← k.1]; exact hp)
      · rw [k2, k3, k.2.2.1, k.2.2.2]
        exact ⟨rfl, rfl⟩

/-- With clear views and an empty memory nothing is planned: the planner's path stays, and so does the path followed. -/
theorem clear_run (u : Uninit) (l : Launch) (es : List NodeEvent) (s0 : NodeSt) (h0 : loopM (nodeStep Q) (nodeInit u l) es = some s0)
    (hp : s0.planning = false) (hm : s0.planner.cloud = []) (later : List NodeEvent) : ∀ s, loopM (nodeStep Q) s0 later = some s → ClearPlans u es later →
    s.planner.cloud = [] ∧ s.planner.star.path = s0.planner.star.path ∧ s.planner.last_path_time = s0.planner.last_path_time ∧
    s.gen.2.planner.path = s0.planner.star.path ∧ s.gen.2.planner.last_path_time = s0.planner.last_path_time := by
  induction later using List.reverseRecOn with
  | nil =>
    intro s h _
    obtain rfl := Option.some.inj h
    obtain ⟨i1, i2⟩ := idle_path u l es s0 h0 hp
    exact ⟨hm, rfl, rfl, i1, i2⟩
  | append_singleton later e ih =>
    intro s' h hc
    obtain ⟨s, h1, h2⟩ := loopM_snoc h
    obtain ⟨k1, k2, k3, k4, k5⟩ := ih s h1 (fun pre f t post e' => hc pre f t (post ++ [e]) (by rw [e']; simp))
    by_cases he : ∃ f t, e = .planStart f t
    · obtain ⟨f, t, rfl⟩ := he
      obtain ⟨c, c1, c2, c3⟩ := hc later f t [] rfl
      have hrun : loopM (nodeStep Q) (nodeInit u l) (es ++ later) = some s := by rw [loopM_append', h0]; exact h1
      obtain ⟨m1, m2, -⟩ := clear_plan hrun h2 c c1 c2 c3
      have hnil : s'.planner.cloud = [] := by
        rw [List.eq_nil_iff_forall_not_mem]
        intro a ha
        obtain ⟨o, ho, -⟩ := m1 a ha
        rw [k1] at ho
        cases ho
      obtain ⟨n1, n2⟩ := m2 hnil
      rw [n1, n2, gen_planner_step (e := .planStart f t) (fun h => h) h2]
      exact ⟨hnil, k2, k3, k4, k5⟩
    · push Not at he
      obtain ⟨⟨j1, j2, j3, -⟩, j | j⟩ := path_step he h2
      · rw [j1, j2, j3, j.2]
        exact ⟨k1, k2, k3, k4, k5⟩
      · rw [j1, j2, j3, j.2.2.1, j.2.2.2]
        exact ⟨k1, k2, k3, k2, k3⟩

/-! ## The mode -/

/-- How many cycles the generator is from flying straight to the goal. -/
def cyclesToDirect : PlannerState → ℕ
  | .DIRECT => 0
  | .TRY_PATH => 1
  | _ => 2

theorem flown_unusable {pl : PlannerInfo} {now : ℝ} (h : PathFlown pl.path (now - pl.last_path_time) (pl.cruise_velocity.getD 0)) : ¬ PathUsable pl now := by
  intro hus
  unfold PathUsable at hus
  cases hv : pl.cruise_velocity with
  | none =>
    unfold wgSetpoint at hus
    rw [hv] at hus
    dsimp only at hus
    rcases h with h | ⟨h, -⟩
    · rw [if_pos h] at hus; cases hus
    · rw [if_neg (by omega), if_neg (by omega)] at hus; cases hus
  | some v =>
    have hsome := wgSetpoint_some (pl := pl) (now := now) hv
    rw [hv] at h
    obtain ⟨q1, -, q3⟩ := C31_edges pl.path (now - pl.last_path_time) v
    rcases h with h | ⟨h, h'⟩
    · rw [q1 h] at hsome
      rw [← Option.some.inj hsome] at hus
      cases hus
    · obtain ⟨sp, hsp⟩ := q3 h h'
      rw [hsp] at hsome
      rw [← Option.some.inj hsome] at hus
      cases hus

theorem altitude_reached {z g : ℝ} {nav : NavState} {a b : Bool} (r : Bool) (h : ¬ AltitudeNeeded z g nav a b false) : ¬ AltitudeNeeded z g nav a b r := by
  intro h'
  refine h ?_
  rcases h' with ⟨h1, -, h2⟩ | h'
  · exact Or.inl ⟨h1, rfl, h2⟩
  · exact Or.inr h'

/-- In `TRY_PATH` and `DIRECT` the landing is looked at, if nothing else comes first. -/
theorem looks_at_landing (st : PlannerState) (s : WgState) (hst : st = .TRY_PATH ∨ st = .DIRECT) (hl : s.loiter = false)
    (hu : ¬ PathUsable s.planner s.current_time) (h : (wgRun st s).2.auto_land = true) : s.nav = .auto_land ∨ (s.nav = .mission ∧ s.is_land = true) := by
  obtain ⟨t1, t2, t3, t4⟩ := targetOf_reach st s
  have tl := targetOf_land st s
  have e := getPathMsg_frame st (targetOf st s)
  have alt : (isAltitudeChange (getPathMsg st (targetOf st s))).2.auto_land = true → s.nav = .auto_land ∨ (s.nav = .mission ∧ s.is_land = true) := by
    intro h
    have h3 := (C37_altitude_change (getPathMsg st (targetOf st s))).2.1
    rw [e.nav, e.is_land, t2, tl] at h3
    exact h3.1 h
  unfold wgRun at h
  rcases hst with rfl | rfl
  · dsimp only at h
    unfold runTryPath at h
    dsimp only at h
    change (if (getPathMsg .TRY_PATH (targetOf .TRY_PATH s)).loiter = true then _ else _ : Transition × WgState).2.auto_land = true at h
    have hlo : (getPathMsg .TRY_PATH (targetOf .TRY_PATH s)).loiter = false := by rw [e.loiter]; exact hl
    rw [if_neg (by rw [hlo]; decide)] at h
    split_ifs at h <;> exact alt h
  · dsimp only at h
    unfold runDirect at h
    dsimp only at h
    have h1 : (getPathMsg .DIRECT (targetOf .DIRECT s)).planner = s.planner := by rw [e.planner]; rfl
    have h2 : (getPathMsg .DIRECT (targetOf .DIRECT s)).current_time = s.current_time := by rw [e.current_time]; rfl
    change (if (wgSetpoint (getPathMsg .DIRECT (targetOf .DIRECT s)).planner (getPathMsg .DIRECT (targetOf .DIRECT s)).current_time).1 = true then _ else _ :
      Transition × WgState).2.auto_land = true at h
    rw [if_neg (by rw [h1, h2]; exact hu)] at h
    split_ifs at h <;> exact alt h

/-- A cycle that has no path to follow and no altitude to change. -/
theorem cycle_to_direct (x : PlannerState × WgState) (i : WgIn) (now : ℝ) (hs : i.stay = false)
    (ha : ¬ AltitudeNeeded i.position.z i.goal.z i.nav i.is_takeoff i.is_land false) (hu : ¬ PathUsable x.2.planner now) :
    cyclesToDirect (wgCycle x i now).1 ≤ cyclesToDirect x.1 - 1 ∧ (cyclesToDirect x.1 ≤ 1 → (wgCycle x i now).2.auto_land = false) := by
  have hs' : ¬ i.stay = true := by rw [hs]; decide
  constructor
  · rw [C37_next_state]
    obtain ⟨st, g⟩ := x
    cases st <;> dsimp only at hu ⊢ <;>
      simp only [if_neg hs', if_neg hu, if_neg (altitude_reached _ ha)] <;> simp [cyclesToDirect]
  · intro hc
    by_contra hal
    rw [Bool.not_eq_false] at hal
    obtain ⟨a1, -, -, -, a5, a6, -, a8, -, a10, -⟩ := wgStart_spec x.2 i now
    have hst : x.1 = .TRY_PATH ∨ x.1 = .DIRECT := by
      cases hx : x.1 with
      | TRY_PATH => exact Or.inl rfl
      | DIRECT => exact Or.inr rfl
      | _ => rw [hx] at hc; simp [cyclesToDirect] at hc
    have := looks_at_landing x.1 (wgStart x.2 i now) hst (by rw [a8, hs]) (by rw [a1, a10]; exact hu) hal
    rw [a5, a6] at this
    exact ha (Or.inr (Or.inr (Or.inr (Or.inr this))))

theorem mode_run (u : Uninit) (l : Launch) (es : List NodeEvent) (s0 : NodeSt) (h0 : loopM (nodeStep Q) (nodeInit u l) es = some s0)
    (hp : s0.planning = false) (hm : s0.planner.cloud = []) (later : List NodeEvent) : ∀ s, loopM (nodeStep Q) s0 later = some s → ClearPlans u es later →
    SendsFree Q s0 later →
    s0.sent.length ≤ s.sent.length ∧ cyclesToDirect s.gen.1 ≤ 2 - (s.sent.length - s0.sent.length) ∧
    (s0.sent.length + 2 ≤ s.sent.length → s.gen.2.auto_land = false) := by
  induction later using List.reverseRecOn with
  | nil =>
    intro s h _ _
    obtain rfl := Option.some.inj h
    refine ⟨le_rfl, ?_, fun h => by omega⟩
    rw [Nat.sub_self]
    cases s0.gen.1 <;> simp [cyclesToDirect]
  | append_singleton later e ih =>
    intro s' h hc hf
    obtain ⟨s, h1, h2⟩ := loopM_snoc h
    have hc' : ClearPlans u es later := fun pre f t post e' => hc pre f t (post ++ [e]) (by rw [e']; simp)
    obtain ⟨k1, k2, k3⟩ := ih s h1 hc' (fun pre t post sp e' => hf pre t (post ++ [e]) sp (by rw [e']; simp))
    by_cases he : ∃ t, e = .send t
    · obtain ⟨t, rfl⟩ := he
      obtain ⟨f1, f2⟩ := hf later t [] s rfl h1
      obtain ⟨-, -, -, g4, g5⟩ := clear_run u l es s0 h0 hp hm later s h1 hc'
      unfold nodeStep at h2
      dsimp only at h2
      split_ifs at h2
      obtain rfl := Option.some.inj h2
      obtain ⟨a1, a2⟩ := sendStep_active s t
      by_cases ha : t - s.last_wp_time ≤ 1 / 2 ∨ t - s.start_time ≤ 5
      · obtain ⟨b1, b2, -⟩ := a1 ha
        obtain ⟨c1, c2⟩ := cycle_to_direct s.gen (inputOf s false) t rfl f1 (flown_unusable (by rw [g4, g5]; exact f2))
        rw [b1, b2, List.length_append, List.length_singleton]
        refine ⟨by omega, by omega, fun hn => c2 (by omega)⟩
      · obtain ⟨b1, b2, -⟩ := a2 ha
        rw [b1, b2]
        exact ⟨k1, k2, k3⟩
    · push Not at he
      have hs := C91_only_the_command_loop_sends s s' e he h2
      have hg : s'.gen.1 = s.gen.1 ∧ s'.gen.2.auto_land = s.gen.2.auto_land := by
        cases e with
        | send t => exact absurd rfl (he t)
        | planStart f t =>
          unfold nodeStep at h2
          dsimp only at h2
          split_ifs at h2
          rw [Option.map_eq_some_iff] at h2
          obtain ⟨pl, -, rfl⟩ := h2
          exact ⟨rfl, rfl⟩
        | poll t =>
          unfold nodeStep at h2
          dsimp only at h2
          rw [Option.bind_eq_some_iff] at h2
          obtain ⟨t0, -, h2⟩ := h2
          split_ifs at h2 <;> obtain rfl := Option.some.inj h2 <;> exact ⟨rfl, rfl⟩
        | config c a b t =>
          unfold nodeStep at h2
          dsimp only at h2
          split_ifs at h2
          obtain rfl := Option.some.inj h2
          exact ⟨rfl, rfl⟩
        | planEnd t =>
          unfold nodeStep at h2
          dsimp only at h2
          split_ifs at h2
          obtain rfl := Option.some.inj h2
          exact ⟨rfl, rfl⟩
        | timer t =>
          unfold nodeStep at h2
          dsimp only at h2
          split_ifs at h2
          obtain rfl := Option.some.inj h2
          exact ⟨rfl, rfl⟩
        | _ => obtain rfl := Option.some.inj h2; exact ⟨rfl, rfl⟩
      rw [hg.1, hg.2, hs]
      exact ⟨k1, k2, k3⟩

/-- The setpoint of a cycle in `DIRECT`: on the line to the goal, not beyond it. -/
theorem direct_adapted (s : WgState) (i : WgIn) (now : ℝ) (hl : s.auto_land = false) :
    let o := (wgCycle (.DIRECT, s) i now).2
    ∃ k : ℝ, k ≤ 1 ∧ o.out_adapted = i.position.plus (V3.smul k (i.goal.minus i.position)) ∧ (0 ≤ o.speed → 0 ≤ k) := by
  dsimp only
  obtain ⟨al, re, sc, ho⟩ := wgCycle_out (.DIRECT, s) i now
  obtain ⟨a1, a2, a3, a4, a5, a6, a7, a8, a9, a10, a11, a12, a13, a14, a15, a16, a17, -⟩ := wgStart_spec s i now
  obtain ⟨m1, m2, m3, m4, m5, m6, m7⟩ := targetOf_more .DIRECT (wgStart s i now)
  have hD := goalDistance_eq .DIRECT s i now
  have hpos := (targetOf_reach .DIRECT (wgStart s i now)).2.2.2
  have hgo := C37_direct_waypoint s i now
  dsimp only at hgo
  rw [ho] at hgo ⊢
  dsimp only at hgo ⊢
  generalize hg : targetOf .DIRECT (wgStart s i now) = g at hgo m1 m2 m3 m4 m5 m6 m7 hD hpos
  obtain ⟨s1, s2, s3⟩ := getPathMsg_speed .DIRECT g (by rw [m1, a17, hl])
  rw [hpos, a2] at s3
  rw [hD] at s1
  have hDe : goalDistance .DIRECT i = (i.goal.minus i.position).norm := by
    unfold goalDistance; rw [if_neg (by rintro ⟨h, -⟩; cases h)]
  rw [hDe] at s1
  have hsp : (getPathMsg .DIRECT g).speed ≤ (i.goal.minus i.position).norm := by rw [s1]; exact min_le_right _ _
  rw [s3]
  set v := (getPathMsg .DIRECT g).speed with hv
  set w := i.goal.minus i.position with hw
  have hn := V3.norm_nonneg w
  have hsub : ∀ a : V3 ℝ, ((i.position.plus a).minus i.position) = a := fun a => by unfold V3.plus V3.minus; cases a; simp
  have hdiv : 0 < w.norm → v / w.norm ≤ 1 := fun h => by rw [div_le_one h]; exact hsp
  by_cases hnear : w.norm < 1
  · have hg1 : (getPathMsg .DIRECT g).out_goto = i.goal := hgo.1 ⟨hl, hnear⟩
    rw [hg1, ← hw]
    by_cases hten : w.norm > 1 / 10
    · rw [if_pos hten, V3.smul_normalized (by linarith)]
      exact ⟨v / w.norm, hdiv (by linarith), rfl, fun h => div_nonneg h hn⟩
    · rw [if_neg hten]
      push Not at hten
      exact ⟨v, by linarith, rfl, fun h => h⟩
  · have hg1 := hgo.2 (fun h => hnear h.2)
    push Not at hnear
    have hne : i.goal ≠ i.position := by
      intro e
      rw [hw, e] at hnear
      have : (i.position.minus i.position).norm = 0 := by unfold V3.minus V3.norm V3.dot; simp
      rw [this] at hnear
      linarith
    obtain ⟨q1, q, q0, q2⟩ := hg1.2 hne
    rw [q2, hsub] at q1 ⊢
    rw [← hw] at q1 ⊢
    rw [if_pos (by rw [q1]; norm_num), V3.smul_normalized (by rw [q1]; norm_num), q1]
    refine ⟨v * q, ?_, ?_, fun h => mul_nonneg h q0.le⟩
    · rw [V3.norm_smul, abs_of_pos q0] at q1
      have : q * v ≤ q * w.norm := mul_le_mul_of_nonneg_left hsp q0.le
      linarith
    · unfold V3.smul
      simp only [div_one, mul_assoc]

/-- **C110.** With a clear view the vehicle is sent straight to the goal. After any history in which the worker is idle and remembers no obstacle, let all further plans be
started with a clear view (no camera shows a point between the minimum and the maximum sensor range), and let the path planned last have been flown at every round of the
command loop, no climb, take-off or landing being asked for. Then from the third setpoint on the waypoint of every setpoint is one metre from the newest position received straight
towards the goal in force, and the goal itself within a metre; before smoothing the setpoint is on the line from the vehicle to the goal and not beyond it; it is not behind
the vehicle if the speeds given are not negative, and the published position is the same if smoothing is off.  (`_partial`: a path of exactly two nodes is never flown, see
`C110_two_nodes_violated`.) -/
theorem C110_straight_to_goal_partial (u : Uninit) (l : Launch) (es : List NodeEvent) (s0 : NodeSt) (h0 : loopM (nodeStep Q) (nodeInit u l) es = some s0)
    (hidle : s0.planning = false) (hempty : s0.planner.cloud = []) (later : List NodeEvent) (s s' : NodeSt) (now : ℝ)
    (h1 : loopM (nodeStep Q) s0 later = some s) (h2 : nodeStep Q s (.send now) = some s') (m : SentMsg) (hm : s'.sent = s.sent ++ [m])
    (hclear : ClearPlans u es later) (hfree : SendsFree Q s0 (later ++ [.send now])) (hthird : s0.sent.length + 2 ≤ s.sent.length) :
    let p := (newestPose u (es ++ later)).1
    let g := s.goals.goal.val
    ((g.minus p).norm < 1 → m.goto = g) ∧ (1 ≤ (g.minus p).norm → OneMetreTowards p g m.goto) ∧
    (∃ k : ℝ, k ≤ 1 ∧ m.adapted = p.plus (V3.smul k (g.minus p)) ∧
      (∀ V, 2 ≤ V → (∀ c, u.cruise_velocity = some c → 0 ≤ c ∧ c ≤ V) → PlansWithin V l (es ++ later) → 0 ≤ k)) ∧
    ((newestSmoothing (es ++ later)).1 < 1 / 100 ∨ (newestSmoothing (es ++ later)).2 < 1 / 100 → m.position = m.adapted.fin) := by
  have hfree' : SendsFree Q s0 later := fun pre t post sp e' => hfree pre t (post ++ [.send now]) sp (by rw [e']; simp)
  obtain ⟨-, k2, k3⟩ := mode_run u l es s0 h0 hidle hempty later s h1 hclear hfree'
  have hland := k3 hthird
  have hmode : s.gen.1 = .DIRECT := by
    have : cyclesToDirect s.gen.1 = 0 := by omega
    cases hx : s.gen.1 with
    | DIRECT => rfl
    | _ => rw [hx] at this; simp [cyclesToDirect] at this
  have hrun : loopM (nodeStep Q) (nodeInit u l) (es ++ later) = some s := by rw [loopM_append', h0]; exact h1
  obtain ⟨a1, a2⟩ := C91_message u l _ s s' now hrun h2
  by_cases ha : now - newestPlan (es ++ later) ≤ 1 / 2 ∨ now - l.start ≤ 5
  swap
  · rw [(a2 ha).2] at hm
    have := congrArg List.length hm
    simp at this
  obtain ⟨b1, b2⟩ := a1 ha
  rw [b2] at hm
  have hm' := (List.cons.inj (List.append_cancel_left hm)).1
  have hgen : s.gen = (.DIRECT, s.gen.2) := by rw [← hmode]
  rw [hgen] at hm' b1
  set i := newestInput u (es ++ later) s.goals.goal.val s.goals.is_land s.goals.is_takeoff s.goals.desired_velocity with hi
  have ip : i.position = (newestPose u (es ++ later)).1 := rfl
  have ig : i.goal = s.goals.goal.val := rfl
  obtain ⟨w1, w2⟩ := C37_direct_waypoint s.gen.2 i now
  obtain ⟨k, d1, d2, d3⟩ := direct_adapted s.gen.2 i now hland
  dsimp only
  rw [← hm', ← ip, ← ig]
  refine ⟨fun h => w1 ⟨hland, h⟩, fun h => w2 (fun h' => absurd h'.2 (not_lt.mpr h)), ⟨k, d1, d2, ?_⟩, ?_⟩
  · intro V hV hu hpl
    refine d3 ?_
    have hsp := (C92_speed_partial V hV u l _ s hrun hu hpl).1
    have hfo := gen_fovs_ok u l _ s hrun (fun f t hft => by obtain ⟨a, b, e⟩ := List.append_of_mem hft; exact (hpl a f t b e).1)
    have hcr := gen_cruise V u l _ s hrun hu hpl
    exact (C38_speed_step (.DIRECT, s.gen.2) i now hland hfo hsp (fun c hc => (hcr c hc).1)).1
  · intro hsm
    have ks := (nodeKnows u l _ s hrun).smoothing
    rw [← ks] at hsm
    obtain ⟨al, re, sc, ho⟩ := wgCycle_out (.DIRECT, s.gen.2) i now
    obtain ⟨m1, -⟩ := targetOf_more .DIRECT (wgStart s.gen.2 i now)
    obtain ⟨-, -, -, -, -, -, -, -, -, -, -, -, -, -, -, -, a17, -, -, -, a21, a22, -⟩ := wgStart_spec s.gen.2 i now
    obtain ⟨-, -, m5, m6, -⟩ := targetOf_filter .DIRECT (wgStart s.gen.2 i now)
    rw [ho]
    dsimp only
    exact C39_disabled _ _ (by rw [m1, a17, hland]) (by rw [m5, m6, a21, a22]; exact hsm)

/-! ## The memory of a node with a clear view runs out -/

/-- The runs of the planner are the plans started. -/
theorem runs_are_plans (u : Uninit) (l : Launch) (es : List NodeEvent) : ∀ s, loopM (nodeStep Q) (nodeInit u l) es = some s → ∀ t, LpEvent.run t ∈ s.calls →
    ∃ f, NodeEvent.planStart f t ∈ es := by
  induction es using List.reverseRecOn with
  | nil =>
    intro s h t ht
    obtain rfl := Option.some.inj h
    simp [nodeInit] at ht
  | append_singleton es e ih =>
    intro s' h t ht
    obtain ⟨s, h1, h2⟩ := loopM_snoc h
    have weaken : LpEvent.run t ∈ s.calls → ∃ f, NodeEvent.planStart f t ∈ es ++ [e] := fun hx => by
      obtain ⟨f, hf⟩ := ih s h1 t hx
      exact ⟨f, List.mem_append_left _ hf⟩
    cases e with
    | planStart f t' =>
      obtain ⟨x, -, -, -, -, hc⟩ := plan_calls h1 h2
      rw [hc] at ht
      rcases List.mem_append.mp ht with ht | ht
      · exact weaken ht
      · rcases List.mem_append.mp ht with ht | ht
        · exact absurd rfl (updateCalls_no_run s f _ ht t)
        · rw [List.mem_singleton] at ht
          injection ht with ht
          exact ⟨f, by rw [ht]; simp⟩
    | config c a b t' =>
      unfold nodeStep at h2
      dsimp only at h2
      split_ifs at h2
      obtain rfl := Option.some.inj h2
      rcases List.mem_append.mp ht with ht | ht
      · exact weaken ht
      · simp at ht
    | planEnd t' =>
      unfold nodeStep at h2
      dsimp only at h2
      split_ifs at h2
      obtain rfl := Option.some.inj h2
      exact weaken ht
    | timer t' =>
      unfold nodeStep at h2
      dsimp only at h2
      split_ifs at h2
      obtain rfl := Option.some.inj h2
      exact weaken ht
    | poll t' =>
      unfold nodeStep at h2
      dsimp only at h2
      rw [Option.bind_eq_some_iff] at h2
      obtain ⟨t0, -, h2⟩ := h2
      split_ifs at h2 <;> obtain rfl := Option.some.inj h2 <;> exact weaken ht
    | send t' =>
      unfold nodeStep at h2
      dsimp only at h2
      split_ifs at h2
      obtain rfl := Option.some.inj h2
      obtain ⟨-, -, -, -, -, -, -, -, -, q10, -⟩ := sendStep_keeps s t'
      rw [q10] at ht
      exact weaken ht
    | _ => obtain rfl := Option.some.inj h2; exact weaken ht

/-- With clear views nothing in the memory is younger than `T`, the time of the last plan before, and an empty memory stays empty. -/
theorem clear_memory (u : Uninit) (l : Launch) (es : List NodeEvent) (s0 : NodeSt) (h0 : loopM (nodeStep Q) (nodeInit u l) es = some s0) (T : ℝ)
    (hT : ∀ a ∈ s0.planner.cloud, s0.planner.last_process_time - T ≤ a.age) (later : List NodeEvent) : ∀ s, loopM (nodeStep Q) s0 later = some s →
    ClearPlans u es later → (∀ a ∈ s.planner.cloud, s.planner.last_process_time - T ≤ a.age) ∧ (s0.planner.cloud = [] → s.planner.cloud = []) := by
  induction later using List.reverseRecOn with
  | nil =>
    intro s h _
    obtain rfl := Option.some.inj h
    exact ⟨hT, fun h => h⟩
  | append_singleton later e ih =>
    intro s' h hc
    obtain ⟨s, h1, h2⟩ := loopM_snoc h
    obtain ⟨k, k'⟩ := ih s h1 (fun pre f t post e' => hc pre f t (post ++ [e]) (by rw [e']; simp))
    by_cases he : ∃ f t, e = .planStart f t
    · obtain ⟨f, t, rfl⟩ := he
      obtain ⟨c, c1, c2, c3⟩ := hc later f t [] rfl
      have hrun : loopM (nodeStep Q) (nodeInit u l) (es ++ later) = some s := by rw [loopM_append', h0]; exact h1
      obtain ⟨m1, -, m3⟩ := clear_plan hrun h2 c c1 c2 c3
      constructor
      · intro a ha
        obtain ⟨o, ho, -, e2⟩ := m1 a ha
        rw [m3, e2]
        have := k o ho
        linarith
      · intro h0
        rw [List.eq_nil_iff_forall_not_mem]
        intro a ha
        obtain ⟨o, ho, -⟩ := m1 a ha
        rw [k' h0] at ho
        cases ho
    · push Not at he
      obtain ⟨⟨j1, -, -, j4⟩, -⟩ := path_step he h2
      rw [j1, j4]
      exact ⟨k, k'⟩

/-- **C110, the memory runs out.** Let all plans so far have been started up to the time `T` and let all further plans be started with a clear view. Once two plans in succession have been
started, the first at least the configured maximum age of points after `T`, nothing is remembered any longer, and this stays so. -/
theorem C110_forgotten (u : Uninit) (l : Launch) (es : List NodeEvent) (s0 : NodeSt) (h0 : loopM (nodeStep Q) (nodeInit u l) es = some s0) (T : ℝ)
    (hT : ∀ f t, NodeEvent.planStart f t ∈ es → t ≤ T) (pre mid post : List NodeEvent) (f1 f2 : List (List (V3 (Flt ℝ)) × FOV ℝ)) (t1 t2 : ℝ) (s : NodeSt)
    (h1 : loopM (nodeStep Q) s0 (pre ++ .planStart f1 t1 :: (mid ++ .planStart f2 t2 :: post)) = some s)
    (hclear : ClearPlans u es (pre ++ .planStart f1 t1 :: (mid ++ .planStart f2 t2 :: post))) (hmid : ∀ f t, NodeEvent.planStart f t ∉ mid)
    (hage : ∀ c, newestConfig (es ++ (pre ++ .planStart f1 t1 :: mid)) = some c → c.max_point_age ≤ t1 - T) : s.planner.cloud = [] := by
  have e0 : ∀ a ∈ s0.planner.cloud, s0.planner.last_process_time - T ≤ a.age := by
    intro a ha
    have k := nodeKnows u l es s0 h0
    obtain ⟨t, ⟨b, c, hb, -⟩, ht⟩ := C88_provenance _ _ k.calls a ha
    obtain ⟨f, hf⟩ := runs_are_plans u l es s0 h0 t (by rw [hb]; simp)
    have := hT f t hf
    rw [lastRun_known _ _ k.calls, ht]
    linarith
  rw [show pre ++ NodeEvent.planStart f1 t1 :: (mid ++ .planStart f2 t2 :: post) = (pre ++ [.planStart f1 t1]) ++ (mid ++ ([.planStart f2 t2] ++ post)) by simp,
    loopM_append', Option.bind_eq_some_iff] at h1
  obtain ⟨s2, g1, h1⟩ := h1
  rw [loopM_append', Option.bind_eq_some_iff] at h1
  obtain ⟨s3, g2, h1⟩ := h1
  rw [loopM_append', Option.bind_eq_some_iff] at h1
  obtain ⟨s4, g3, h1⟩ := h1
  rw [loopM_one] at g3
  have c1 : ClearPlans u es (pre ++ [.planStart f1 t1]) := fun a f t b e => hclear a f t (b ++ (mid ++ .planStart f2 t2 :: post)) (by
    rw [show pre ++ NodeEvent.planStart f1 t1 :: (mid ++ .planStart f2 t2 :: post) = (pre ++ [.planStart f1 t1]) ++ (mid ++ .planStart f2 t2 :: post) by simp, e]; simp)
  have hlast : s2.planner.last_process_time = t1 := by
    obtain ⟨s1, r1, r2⟩ := loopM_snoc g1
    obtain ⟨c, d1, d2, d3⟩ := hclear pre f1 t1 _ rfl
    exact (clear_plan (by rw [loopM_append', h0]; exact r1) r2 c d1 d2 d3).2.2
  have hkeep : s3.planner.last_process_time = t1 := by
    have : ∀ (ms : List NodeEvent) (a b : NodeSt), loopM (nodeStep Q) a ms = some b → (∀ f t, NodeEvent.planStart f t ∉ ms) →
        b.planner.last_process_time = a.planner.last_process_time := by
      intro ms
      induction ms using List.reverseRecOn with
      | nil => intro a b h _; obtain rfl := Option.some.inj h; rfl
      | append_singleton ms e ih =>
        intro a b h hn
        obtain ⟨x, x1, x2⟩ := loopM_snoc h
        rw [(path_step (fun f t e' => hn f t (by rw [e']; simp)) x2).1.2.2.2]
        exact ih a x x1 (fun f t hm => hn f t (List.mem_append_left _ hm))
    rw [this mid s2 s3 g2 hmid, hlast]
  have g12 : loopM (nodeStep Q) s0 ((pre ++ [.planStart f1 t1]) ++ mid) = some s3 := by rw [loopM_append', g1]; exact g2
  have c2 : ClearPlans u es ((pre ++ [.planStart f1 t1]) ++ mid) := fun a f t b e => hclear a f t (b ++ .planStart f2 t2 :: post) (by
    rw [show pre ++ NodeEvent.planStart f1 t1 :: (mid ++ .planStart f2 t2 :: post) = ((pre ++ [.planStart f1 t1]) ++ mid) ++ (.planStart f2 t2 :: post) by simp, e]; simp)
  obtain ⟨ages, -⟩ := clear_memory u l es s0 h0 T e0 _ s3 g12 c2
  have hrun3 : loopM (nodeStep Q) (nodeInit u l) (es ++ ((pre ++ [.planStart f1 t1]) ++ mid)) = some s3 := by rw [loopM_append', h0]; exact g12
  have hl : es ++ ((pre ++ [.planStart f1 t1]) ++ mid) = es ++ (pre ++ .planStart f1 t1 :: mid) := by simp
  obtain ⟨c, d1, d2, d3⟩ := hclear (pre ++ .planStart f1 t1 :: mid) f2 t2 post (by simp)
  have hnil : s4.planner.cloud = [] := by
    rw [List.eq_nil_iff_forall_not_mem]
    intro a ha
    obtain ⟨o, ho, ho2, -⟩ := (clear_plan hrun3 g3 c (by rw [hl]; exact d1) d2 (by rw [hl]; exact d3)).1 a ha
    have := ages o ho
    rw [hkeep] at this
    have := hage c d1
    linarith
  have hrun4 : loopM (nodeStep Q) (nodeInit u l) (es ++ ((pre ++ .planStart f1 t1 :: mid) ++ [.planStart f2 t2])) = some s4 := by
    rw [← List.append_assoc, loopM_append', ← hl, hrun3]
    show loopM (nodeStep Q) s3 [.planStart f2 t2] = _
    rw [loopM_one, g3]
  refine (clear_memory u l _ s4 hrun4 (s4.planner.last_process_time) (by rw [hnil]; simp) post s h1 ?_).2 hnil
  intro a f t b e
  obtain ⟨c', x1, x2, x3⟩ := hclear ((pre ++ .planStart f1 t1 :: mid) ++ [.planStart f2 t2] ++ a) f t b (by rw [e]; simp)
  have hl' : es ++ ((pre ++ .planStart f1 t1 :: mid) ++ [.planStart f2 t2] ++ a) = es ++ ((pre ++ .planStart f1 t1 :: mid) ++ [.planStart f2 t2]) ++ a := by simp
  rw [hl'] at x1 x3
  exact ⟨c', x1, x2, x3⟩

/-! ## A path of two nodes -/

/-- **C110, finding.** A path of exactly two nodes is never used up, and a clear view never clears the path: if the path planned last before is `[a, b]` and is being followed, then - for ever, as
long as the view is clear, nothing is remembered and no climb, take-off or landing is asked for - every waypoint is one metre towards `a` (unless the goal is within a metre), wherever the
goal is now and however long ago the path was planned. -/
theorem C110_two_nodes_violated (u : Uninit) (l : Launch) (es : List NodeEvent) (s0 : NodeSt) (h0 : loopM (nodeStep Q) (nodeInit u l) es = some s0)
    (hidle : s0.planning = false) (hempty : s0.planner.cloud = []) (a b : V3 ℝ) (hpath : s0.planner.output.2.2 = [a, b]) (hmode : s0.gen.1 = .TRY_PATH)
    (hland : s0.gen.2.auto_land = false) (hspeed : s0.gen.2.planner.cruise_velocity ≠ none) (later : List NodeEvent) (s s' : NodeSt) (now : ℝ)
    (h1 : loopM (nodeStep Q) s0 later = some s) (h2 : nodeStep Q s (.send now) = some s') (m : SentMsg) (hm : s'.sent = s.sent ++ [m])
    (hclear : ClearPlans u es later) (hclimb : ∀ pre t post sp, later = pre ++ .send t :: post → loopM (nodeStep Q) s0 pre = some sp → NoClimb sp) :
    let p := (newestPose u (es ++ later)).1
    let g := s.goals.goal.val
    ((g.minus p).norm < 1 → m.goto = g) ∧ (1 ≤ (g.minus p).norm → OneMetreTowards p a m.goto) := by
  have hspd : ∀ (ms : List NodeEvent) (t : NodeSt), loopM (nodeStep Q) s0 ms = some t → t.gen.2.planner.cruise_velocity ≠ none := by
    intro ms
    induction ms using List.reverseRecOn with
    | nil => intro t h; obtain rfl := Option.some.inj h; exact hspeed
    | append_singleton ms e ih =>
      intro t h
      obtain ⟨x, x1, x2⟩ := loopM_snoc h
      by_cases hend : IsPlanEnd e
      · cases e with
        | planEnd t' =>
          unfold nodeStep at x2
          dsimp only at x2
          split_ifs at x2
          obtain rfl := Option.some.inj x2
          simp [infoOf]
        | _ => exact absurd hend (fun h => h)
      · rw [gen_planner_step hend x2]
        exact ih x x1
  have husable : ∀ (ms : List NodeEvent) (t : NodeSt), loopM (nodeStep Q) s0 ms = some t → ClearPlans u es ms → ∀ now, ∃ v, t.gen.2.planner.cruise_velocity = some v ∧
      getSetpointFromPath t.gen.2.planner.path (now - t.gen.2.planner.last_path_time) v = some (true, some a) := by
    intro ms t h hc now
    obtain ⟨-, -, -, k4, -⟩ := clear_run u l es s0 h0 hidle hempty ms t h hc
    obtain ⟨v, hv⟩ := Option.ne_none_iff_exists'.mp (hspd ms t h)
    refine ⟨v, hv, ?_⟩
    rw [k4, show s0.planner.star.path = [a, b] from hpath]
    exact (C31_edges [a, b] _ _).2.1 a b rfl
  have hus : ∀ (ms : List NodeEvent) (t : NodeSt), loopM (nodeStep Q) s0 ms = some t → ClearPlans u es ms → ∀ now, PathUsable t.gen.2.planner now := by
    intro ms t h hc now
    obtain ⟨v, hv, hsp⟩ := husable ms t h hc now
    have := wgSetpoint_some (pl := t.gen.2.planner) (now := now) hv
    rw [hsp] at this
    unfold PathUsable
    rw [← Option.some.inj this]
  have hmodes : ∀ (ms : List NodeEvent) (t : NodeSt), loopM (nodeStep Q) s0 ms = some t → ClearPlans u es ms →
      (∀ pre t post sp, ms = pre ++ .send t :: post → loopM (nodeStep Q) s0 pre = some sp → NoClimb sp) → t.gen.1 = .TRY_PATH ∧ t.gen.2.auto_land = false := by
    intro ms
    induction ms using List.reverseRecOn with
    | nil => intro t h _ _; obtain rfl := Option.some.inj h; exact ⟨hmode, hland⟩
    | append_singleton ms e ih =>
      intro t h hc hn
      obtain ⟨x, x1, x2⟩ := loopM_snoc h
      have hc' : ClearPlans u es ms := fun pre f t post e' => hc pre f t (post ++ [e]) (by rw [e']; simp)
      obtain ⟨k1, k2⟩ := ih x x1 hc' (fun pre t post sp e' => hn pre t (post ++ [e]) sp (by rw [e']; simp))
      cases e with
      | send t' =>
        have hcl := hn ms t' [] x rfl x1
        unfold nodeStep at x2
        dsimp only at x2
        split_ifs at x2
        obtain rfl := Option.some.inj x2
        obtain ⟨a1, a2⟩ := sendStep_active x t'
        by_cases ha : t' - x.last_wp_time ≤ 1 / 2 ∨ t' - x.start_time ≤ 5
        · rw [(a1 ha).1]
          constructor
          · rw [C37_next_state, k1]
            dsimp only
            have hcl' : ¬ AltitudeNeeded (inputOf x false).position.z (inputOf x false).goal.z (inputOf x false).nav (inputOf x false).is_takeoff (inputOf x false).is_land false := hcl
            rw [if_neg (by simp [inputOf]), if_neg (altitude_reached _ hcl'), if_pos (hus ms x x1 hc' t')]
          · by_contra hal
            rw [Bool.not_eq_false] at hal
            obtain ⟨-, -, -, -, b5, b6, -, -, -, -, -, -, -, -, -, -, b17, -⟩ := wgStart_spec x.gen.2 (inputOf x false) t'
            rcases wgRun_land x.gen.1 (wgStart x.gen.2 (inputOf x false) t') hal with hc | hc | hc
            · rw [b17, k2] at hc; cases hc
            · rw [b5] at hc; exact hcl (Or.inr (Or.inr (Or.inr (Or.inr (Or.inl hc)))))
            · rw [b5, b6] at hc; exact hcl (Or.inr (Or.inr (Or.inr (Or.inr (Or.inr hc)))))
        · rw [(a2 ha).1]; exact ⟨k1, k2⟩
      | planStart f t' =>
        unfold nodeStep at x2
        dsimp only at x2
        split_ifs at x2
        rw [Option.map_eq_some_iff] at x2
        obtain ⟨pl, -, rfl⟩ := x2
        exact ⟨k1, k2⟩
      | poll t' =>
        unfold nodeStep at x2
        dsimp only at x2
        rw [Option.bind_eq_some_iff] at x2
        obtain ⟨t0, -, x2⟩ := x2
        split_ifs at x2 <;> obtain rfl := Option.some.inj x2 <;> exact ⟨k1, k2⟩
      | config c a b t' =>
        unfold nodeStep at x2
        dsimp only at x2
        split_ifs at x2
        obtain rfl := Option.some.inj x2
        exact ⟨k1, k2⟩
      | planEnd t' =>
        unfold nodeStep at x2
        dsimp only at x2
        split_ifs at x2
        obtain rfl := Option.some.inj x2
        exact ⟨k1, k2⟩
      | timer t' =>
        unfold nodeStep at x2
        dsimp only at x2
        split_ifs at x2
        obtain rfl := Option.some.inj x2
        exact ⟨k1, k2⟩
      | _ => obtain rfl := Option.some.inj x2; exact ⟨k1, k2⟩
  obtain ⟨q1, q2⟩ := hmodes later s h1 hclear hclimb
  obtain ⟨v, hv, hsp⟩ := husable later s h1 hclear now
  have hrun : loopM (nodeStep Q) (nodeInit u l) (es ++ later) = some s := by rw [loopM_append', h0]; exact h1
  obtain ⟨a1, a2⟩ := C91_message u l _ s s' now hrun h2
  by_cases ha : now - newestPlan (es ++ later) ≤ 1 / 2 ∨ now - l.start ≤ 5
  swap
  · rw [(a2 ha).2] at hm
    have := congrArg List.length hm
    simp at this
  rw [(a1 ha).2] at hm
  have hm' := (List.cons.inj (List.append_cancel_left hm)).1
  have hgen : s.gen = (.TRY_PATH, s.gen.2) := by rw [← q1]
  rw [hgen] at hm'
  obtain ⟨w1, w2⟩ := C37_path_waypoint s.gen.2 (newestInput u (es ++ later) s.goals.goal.val s.goals.is_land s.goals.is_takeoff s.goals.desired_velocity) now
  dsimp only
  rw [← hm']
  exact ⟨fun h => w1 ⟨q2, h⟩, fun h => (w2 (fun h' => absurd h'.2 (not_lt.mpr h))).1 v true a hv hsp⟩

/-! ### Non-vacuity -/

/-- The events of `exampleFlies` up to the first plan. -/
noncomputable def exampleUp : List NodeEvent :=
  [.config (exampleTree 1) 10 3 20, .state true "AUTO.MISSION", .pose ⟨0, 0, 3⟩ ⟨1, 0, 0, 0⟩, .velocity ⟨1, 0, 0⟩]

/-- A round of the command loop: a pose, the timer, and the round itself. -/
noncomputable def exampleRound (t : ℝ) : List NodeEvent := [.pose ⟨0, 0, 3⟩ ⟨1, 0, 0, 0⟩, .timer t, .send t]

/-- The events of `exampleFlies`: a plan with a point in the way, and two rounds. -/
noncomputable def exampleSaw : List NodeEvent :=
  exampleUp ++ [.planStart exampleFrame 1, .planEnd 1] ++ (exampleRound 1 ++ exampleRound 1)

/-- A camera that measured nothing. -/
noncomputable def exampleClear : List (List (V3 (Flt ℝ)) × FOV ℝ) := [([], ⟨0, 0, 60, 45⟩)]

/-- Rounds of the command loop keep the planner. -/
theorem rounds_keep (ms : List NodeEvent) : ∀ x y : NodeSt, loopM (nodeStep Q) x ms = some y →
    (∀ e ∈ ms, (∃ p q, e = .pose p q) ∨ (∃ t, e = .timer t) ∨ (∃ t, e = .send t)) → y.planner = x.planner ∧ y.planning = x.planning := by
  induction ms using List.reverseRecOn with
  | nil => intro x y h _; obtain rfl := Option.some.inj h; exact ⟨rfl, rfl⟩
  | append_singleton ms e ih =>
    intro x y h hn
    obtain ⟨z, z1, z2⟩ := loopM_snoc h
    obtain ⟨i1, i2⟩ := ih x z z1 (fun e he => hn e (List.mem_append_left _ he))
    rcases hn e (by simp) with ⟨p, q, rfl⟩ | ⟨t, rfl⟩ | ⟨t, rfl⟩
    · obtain rfl := Option.some.inj z2
      exact ⟨i1, i2⟩
    · unfold nodeStep at z2
      dsimp only at z2
      split_ifs at z2
      obtain rfl := Option.some.inj z2
      exact ⟨i1, i2⟩
    · unfold nodeStep at z2
      dsimp only at z2
      split_ifs at z2
      obtain rfl := Option.some.inj z2
      obtain ⟨-, -, -, -, -, -, -, -, q9, -, -, -, q13, -⟩ := sendStep_keeps z t
      rw [q9, q13]
      exact ⟨i1, i2⟩

/-- The fields of view after calls other than runs. -/
theorem fovs_after {cs : List LpEvent} : ∀ {x x' : LPlanner}, loopM (lpStep Q) x cs = some x' → (∀ e ∈ cs, ∀ t, e ≠ .run t) →
    x'.fovs = cs.foldl (fun l e => match e with | .fov i f => if i < l.length then l.set i f else l ++ [f] | _ => l) x.fovs := by
  induction cs with
  | nil => intro x x' h _; obtain rfl := Option.some.inj h; rfl
  | cons e cs ih =>
    intro x x' h hn
    have h : (lpStep Q x e).bind (fun t => loopM (lpStep Q) t cs) = some x' := h
    rw [Option.bind_eq_some_iff] at h
    obtain ⟨y, h1, h2⟩ := h
    rw [ih h2 (fun a ha => hn a (List.mem_cons_of_mem _ ha)), List.foldl_cons]
    congr 1
    cases e with
    | run t => exact absurd rfl (hn _ List.mem_cons_self t)
    | config c =>
      obtain rfl := Option.some.inj h1
      unfold LPlanner.configure
      dsimp only
      split_ifs <;> rfl
    | _ => obtain rfl := Option.some.inj h1; rfl

/-- The node of `exampleFlies` follows a path of two nodes that does not lead to the goal. -/
theorem exampleSaw_path (Q : PriorityQueue (Candidate ℝ) Candidate.lt) : ∃ s a, loopM (nodeStep Q) (nodeInit exampleUninit exampleLaunch) exampleSaw = some s ∧
    s.planner.output.2.2 = [a, ⟨0, 0, 3⟩] ∧ (∀ k, 0 < k → (⟨20, 0, 3⟩ : V3 ℝ) ≠ (⟨0, 0, 3⟩ : V3 ℝ).plus (V3.smul k (a.minus ⟨0, 0, 3⟩))) ∧
    s.gen.1 = .TRY_PATH ∧ s.gen.2.auto_land = false ∧ s.planning = false ∧ s.cmd = none ∧ s.goals.goal.val = ⟨20, 0, 3⟩ ∧ s.goals.is_takeoff = false ∧
    s.goals.is_land = false ∧ plannedGoal s = ⟨20, 0, 3⟩ ∧ s.nav = .mission ∧ s.planner.fovs = [⟨0, 0, 60, 45⟩] ∧ (∀ o ∈ s.planner.cloud, o.p = ⟨5, 0, 3⟩) := by
  obtain ⟨s0, s1, s3, s, s', h0, h1, h3, h4, h5, hmode, ⟨m, hm⟩, hgoal, htk, hld, hpg⟩ := exampleFlies Q 1
  obtain ⟨p, p', k1, k2, -, -, -, -, -, M', hM', hch'⟩ := exampleSeen_meets Q
  obtain ⟨x, hx, hr, hpl, hxg, hcalls⟩ := plan_calls h0 h1
  have hcs : s0.calls ++ updateCalls s0 exampleFrame = exampleSeenHistory := by
    obtain rfl := Option.some.inj h0
    rfl
  rw [hcs, k1] at hx
  obtain rfl := Option.some.inj hx
  rw [k2] at hr
  obtain rfl := Option.some.inj hr
  have hgh : goalAfter exampleSeenHistory = ⟨20, 0, 3⟩ := rfl
  rw [hgh] at hM'
  have hrun : loopM (nodeStep Q) (nodeInit exampleUninit exampleLaunch) (exampleUp ++ .planStart exampleFrame 1 :: ([] ++ .planEnd 1 :: exampleAfter)) = some s := by
    unfold exampleUp
    rw [loopM_append', h0]
    show (nodeStep Q s0 (.planStart exampleFrame 1)).bind _ = _
    rw [h1]
    show (nodeStep Q s1 (.planEnd 1)).bind _ = _
    rw [h3]
    exact h4
  have hrun' : loopM (nodeStep Q) (nodeInit exampleUninit exampleLaunch) exampleSaw = some s' := by
    rw [show exampleSaw = (exampleUp ++ .planStart exampleFrame 1 :: ([] ++ .planEnd 1 :: exampleAfter)) ++ [.send 1] from rfl, loopM_append', hrun]
    show loopM (nodeStep Q) s [.send 1] = _
    rw [loopM_one, h5]
  have haft : ∀ e ∈ exampleAfter, ¬ IsPlanEnd e := by
    intro e he
    simp [exampleAfter] at he
    rcases he with rfl | rfl | rfl | rfl | rfl <;> exact fun h => h
  have hcheap : ∀ M, getCostMatrix s1.planner.histogram (plannedGoal s0) ⟨0, 0, 3⟩ ⟨1, 0, 0⟩ (exampleTree 1).cost (exampleTree 1).smoothing_margin
      s1.planner.closest_pt (exampleTree 1).max_sensor_range (exampleTree 1).min_sensor_range = some M →
      (exampleTree 1).children_per_node ≤ cheapDirections M (distanceCost (exampleTree 1).cost (exampleTree 1).max_sensor_range) := by
    intro M hM
    rw [hpg] at hM
    have hM : some M' = some M := hM'.symm.trans hM
    obtain rfl := Option.some.inj hM
    exact hch'
  have hgne : plannedGoal s0 ≠ ⟨0, 0, 3⟩ := by rw [hpg]; intro e; have := congrArg V3.x e; norm_num at this
  obtain ⟨-, hlast, hfirst, harea⟩ := C93_first_leg _ _ _ s0 s1 exampleFrame 1 h0 h1 (exampleTree 1) rfl (by norm_num [exampleTree, exampleSeenConfig])
    (by norm_num [exampleTree, exampleSeenConfig]) (by norm_num [exampleTree, exampleSeenConfig]) (by norm_num [exampleTree, exampleSeenConfig])
    (by norm_num [exampleTree, exampleSeenConfig]) (by norm_num [exampleTree, exampleSeenConfig]) (by norm_num [exampleTree, exampleSeenConfig]) hgne
    (by norm_num [exampleTree, exampleSeenConfig]) (by norm_num [exampleTree, exampleSeenConfig]) 0 90 (by norm_num) (by norm_num) (exampleFlies_seen 1) hcheap
  have kk := nodeKnows _ _ _ s0 h0
  obtain ⟨l1, l2, l3, l4⟩ := updateCalls_lasts s0.calls s0 exampleFrame
  rw [hcs] at l1 l2 l3 l4
  have happ : GoalApplied exampleSeenHistory := ⟨.applyGoal, by simp [exampleSeenHistory], Or.inl rfl⟩
  obtain ⟨-, b, -⟩ := C86_plan _ 1 p s1.planner k1 k2 exampleSeenConfig rfl _ _ _ l2 _ l4 happ
  have hcount := seen_count k1 exampleFrame 1 exampleSeenConfig rfl l2 l3 0 90
  have hpos : s0.position = ⟨0, 0, 3⟩ := congrArg Prod.fst kk.pose
  obtain ⟨r, hr1, hr2, -⟩ := b (seen_plans _ 1 p s1.planner k1 k2 exampleSeenConfig rfl (by norm_num [exampleSeenConfig])
    (by norm_num [exampleSeenConfig]) (by norm_num [exampleSeenConfig]) 0 90 (by norm_num) (by norm_num)
    (by rw [hcount, hpos]; exact exampleFlies_seen 1))
  have hlen : r.path.length = 2 := one_level _ _ _ _ _ _ _ _ _ (by norm_num [exampleSeenConfig]) r rfl hr1 rfl (by norm_num [exampleSeenConfig])
  have hgen := handed_over hpl (show loopM (nodeStep Q) s1 [] = some s1 from rfl) (by simp) h3 h4 haft
  have hout : s1.planner.output.2.2 = r.path := by rw [hr2]
  obtain ⟨a, b, hab⟩ : ∃ a b, r.path = [a, b] := by
    match hp : r.path, hlen with
    | [a, b], _ => exact ⟨a, b, rfl⟩
  rw [hout, hab] at hlast hfirst
  obtain rfl : b = ⟨0, 0, 3⟩ := by
    have := Option.some.inj hlast
    exact this
  -- the path stays
  have hpath : (s'.planner.star.path = s1.planner.star.path ∧ s'.planner.goal = s1.planner.goal ∧ s'.planner.fovs = s1.planner.fovs ∧ s'.planner.cloud = s1.planner.cloud) ∧ s'.planning = false := by
    have e3 : s3.planner = s1.planner ∧ s3.planning = false := by
      unfold nodeStep at h3
      dsimp only at h3
      split_ifs at h3
      obtain rfl := Option.some.inj h3
      exact ⟨rfl, rfl⟩
    have h45 : loopM (nodeStep Q) s3 (exampleAfter ++ [.send 1]) = some s' := by
      rw [loopM_append', show loopM (nodeStep Q) s3 exampleAfter = some s from h4]
      show loopM (nodeStep Q) s [.send 1] = _
      rw [loopM_one, h5]
    obtain ⟨i1, i2⟩ := rounds_keep _ _ _ h45 (by
      intro e he
      simp [exampleAfter] at he
      rcases he with rfl | rfl | rfl | rfl | rfl | rfl
      · exact Or.inl ⟨_, _, rfl⟩
      · exact Or.inr (Or.inl ⟨_, rfl⟩)
      · exact Or.inr (Or.inr ⟨_, rfl⟩)
      · exact Or.inl ⟨_, _, rfl⟩
      · exact Or.inr (Or.inl ⟨_, rfl⟩)
      · exact Or.inr (Or.inr ⟨_, rfl⟩))
    rw [i1, i2, e3.1, e3.2]
    exact ⟨⟨rfl, rfl, rfl, rfl⟩, rfl⟩
  have hnav : s.nav = .mission := by
    have := (nodeKnows _ _ _ s hrun).state
    exact (congrArg Prod.snd this).trans rfl
  have hclimb : NoClimb s := by
    unfold NoClimb AltitudeNeeded
    rw [htk, hld, hnav]
    simp
  have hsend : s' = sendStep s 1 := by
    unfold nodeStep at h5
    dsimp only at h5
    split_ifs at h5
    exact (Option.some.inj h5).symm
  obtain ⟨q1, q2, q3, q4, q5, q6, q7, q8, q9, q10, q11, q12, q13, q14, q15, q16, q17⟩ := sendStep_keeps s 1
  rw [← hsend] at q1 q2 q3 q4 q5 q6 q7 q8 q9 q10 q11 q12 q13 q14 q15 q16 q17
  have hstart : s.start_time = 0 := (nodeKnows _ _ _ s hrun).start
  obtain ⟨a1, -⟩ := sendStep_active s 1
  obtain ⟨a1, -⟩ := a1 (Or.inr (by rw [hstart]; norm_num))
  rw [← hsend] at a1
  have hcl' : ¬ AltitudeNeeded (inputOf s false).position.z (inputOf s false).goal.z (inputOf s false).nav (inputOf s false).is_takeoff (inputOf s false).is_land false := hclimb
  refine ⟨s', a, hrun', ?_, ?_, ?_, ?_, hpath.2, q14, by rw [q6]; exact hgoal, by rw [q6]; exact htk, by rw [q6]; exact hld, ?_, by rw [q5]; exact hnav, ?_, ?_⟩
  · show s'.planner.star.path = _
    rw [hpath.1.1, ← hab, ← hout]
    rfl
  · intro k hk
    have hcell : polarToHistogramIndex (cartesianToPolarHistogram (⟨20, 0, 3⟩ : V3 ℝ) ⟨0, 0, 3⟩) 2 = fineCell 0 90 := by
      have e := C24_cell_of_direction ⟨[], 0, 0, ⟨0, 0, 3⟩, 0, 0, 0, 0, 0⟩ 20 0 90 (by norm_num) (by norm_num) (by norm_num)
      dsimp only at e
      have e2 : pointAt ⟨0, 0, 3⟩ 20 0 90 = ⟨20, 0, 3⟩ := by
        unfold pointAt degToRad
        have h : (90 : ℝ) * (Real.pi / 180) = Real.pi / 2 := by ring
        rw [h]
        simp
      rw [e2] at e
      exact e
    exact (hfirst [] a rfl).2 _ (harea _ hcell) k hk
  · rw [a1, C37_next_state, hmode]
    dsimp only
    rw [if_neg (by simp [inputOf]), if_neg (altitude_reached _ hcl'), if_pos]
    unfold PathUsable
    have hsome := wgSetpoint_some (pl := s.gen.2.planner) (now := 1) (v := s1.planner.output.1) (by rw [hgen])
    rw [show s.gen.2.planner.path = [a, ⟨0, 0, 3⟩] by rw [hgen]; show s1.planner.output.2.2 = _; rw [hout, hab], (C31_edges [a, ⟨0, 0, 3⟩] _ _).2.1 a _ rfl] at hsome
    rw [← Option.some.inj hsome]
  · refine (no_landing _ _ _ s' hrun' ⟨?_, ?_⟩).2.2
    · intro b hb
      simp [exampleSaw, exampleUp, exampleRound] at hb
    · intro m hm
      simp [exampleSaw, exampleUp, exampleRound] at hm
  · have hx2 : s1.planner.goal = ⟨20, 0, 3⟩ := by
      obtain ⟨out, hh, d, st, t, hsp⟩ := run_spec (show p.run Q 1 = some s1.planner from k2)
      rw [hsp.eq]
      show p.goal = _
      rw [hxg, hpg]
    unfold plannedGoal
    split_ifs
    · rw [q6]; exact hgoal
    · rw [hpath.1.2.1, hx2]
  · rw [hpath.1.2.2.1]
    obtain ⟨out, hh, d, st, t, hsp⟩ := run_spec (show p.run Q 1 = some s1.planner from k2)
    rw [hsp.eq]
    exact fovs_after k1 (by intro e he t; simp [exampleSeenHistory] at he; rcases he with rfl | rfl | rfl | rfl | rfl | rfl | rfl | rfl | rfl <;> (intro h; cases h))
  · rw [hpath.1.2.2.2]
    intro o ho
    rcases cloud_members (show lpStep Q p (.run 1) = some s1.planner from k2) o ho with ⟨-, hu⟩ | ⟨o', ho', -⟩
    · unfold usableNew at hu
      have hu := (List.mem_filter.mp hu).1
      obtain rfl := Option.some.inj k1
      have e4 : ((exampleFrame.map (·.1)).flatten.filterMap V3.finite?) = [(⟨5, 0, 3⟩ : V3 ℝ)] := rfl
      have hu : o.p ∈ ((exampleFrame.map (·.1)).flatten.filterMap V3.finite?) := hu
      rw [e4, List.mem_singleton] at hu
      exact hu
    · rw [(setters_keep k1 (by
        intro e he t; simp [exampleSeenHistory] at he; rcases he with rfl | rfl | rfl | rfl | rfl | rfl | rfl | rfl | rfl <;> (intro h; cases h))).1] at ho'
      cases ho'

/-- A plan with a clear frame is defined, and is handed over. -/
theorem exampleClear_plan (Q : PriorityQueue (Candidate ℝ) Candidate.lt) (u : Uninit) (l : Launch) (es : List NodeEvent) (s : NodeSt) (t : ℝ)
    (h : loopM (nodeStep Q) (nodeInit u l) es = some s) (hp : s.planning = false) (hc : s.cmd = none) (n : ℕ) (hcfg : newestConfig es = some (exampleTree n))
    (hg : plannedGoal s = ⟨20, 0, 3⟩) (hpose : (newestPose u es).1 = ⟨0, 0, 3⟩) :
    ∃ s1 s', nodeStep Q s (.planStart exampleClear t) = some s1 ∧ nodeStep Q s1 (.planEnd t) = some s' ∧
      s'.planning = false ∧ s'.cmd = none ∧ plannedGoal s' = ⟨20, 0, 3⟩ ∧ s'.gen.1 = s.gen.1 ∧ s'.gen.2.auto_land = s.gen.2.auto_land ∧
      s'.goals.goal = s.goals.goal ∧ s'.goals.is_land = s.goals.is_land ∧ s'.goals.is_takeoff = s.goals.is_takeoff ∧ s'.nav = s.nav ∧ s'.last_wp_time = t ∧
      s'.sent = s.sent ∧ s'.gen.2.planner.cruise_velocity ≠ none := by
  have n20 : ((⟨20, 0, 3⟩ : V3 ℝ).minus ⟨0, 0, 3⟩).norm = 20 := by
    unfold V3.norm V3.dot V3.minus
    norm_num
    rw [show (400 : ℝ) = 20 ^ 2 by norm_num, Real.sqrt_sq (by norm_num)]
  obtain ⟨s1, h1⟩ := C93_plan_defined _ _ _ s exampleClear t h hp (by simp [exampleClear]) (exampleTree n) hcfg (by norm_num [exampleTree, exampleSeenConfig])
    (by norm_num [exampleTree, exampleSeenConfig]) (by norm_num [exampleTree, exampleSeenConfig]) (by norm_num [exampleTree, exampleSeenConfig])
    (by norm_num [exampleTree, exampleSeenConfig]) (by rw [hg, hpose]; intro e; have := congrArg V3.x e; norm_num at this)
    (by rw [hg, hpose, n20]; norm_num [exampleTree, exampleSeenConfig])
  obtain ⟨x, hx, hr, hpl, hxg, hcalls⟩ := plan_calls h h1
  have hgoal : s1.planner.goal = ⟨20, 0, 3⟩ := by
    obtain ⟨out, hh, d, st, t, hsp⟩ := run_spec (show x.run Q t = some s1.planner from hr)
    rw [hsp.eq]
    show x.goal = _
    rw [hxg, hg]
  have hs1 : s1.goals = { s.goals with new_goal := false } ∧ s1.cmd = s.cmd ∧ s1.gen.1 = s.gen.1 ∧ s1.gen.2.auto_land = s.gen.2.auto_land ∧ s1.nav = s.nav ∧ s1.sent = s.sent := by
    unfold nodeStep at h1
    dsimp only at h1
    split_ifs at h1
    rw [Option.map_eq_some_iff] at h1
    obtain ⟨pl, -, rfl⟩ := h1
    exact ⟨rfl, rfl, rfl, rfl, rfl, rfl⟩
  obtain ⟨e1, e2, e3, e4, e5, e6⟩ := hs1
  refine ⟨s1, { s1 with planning := false, last_wp_time := t, gen := (s1.gen.1, { s1.gen.2 with planner := infoOf s1.planner }) }, h1, ?_, rfl, ?_, ?_, ?_, ?_, ?_, ?_, ?_, ?_, rfl, ?_, ?_⟩
  · exact if_pos ⟨hpl, by rw [e2]; exact hc⟩
  · exact e2.trans hc
  · unfold plannedGoal
    dsimp only
    rw [if_neg (by rw [e1]; simp), hgoal]
  · exact e3
  · exact e4
  · dsimp only; rw [e1]
  · dsimp only; rw [e1]
  · dsimp only; rw [e1]
  · exact e5
  · exact e6
  · simp [infoOf]

/-- The point 5 m ahead is in the field of view of the camera. -/
theorem exampleAhead (c : CloudParams) (h1 : c.fov = [⟨0, 0, 60, 45⟩]) (h2 : c.position = ⟨0, 0, 3⟩) (h3 : c.yaw_deg = 0) (h4 : c.pitch_deg = 0) :
    pointInsideFOV c.fov (bodyDirection c ⟨5, 0, 3⟩) = true := by
  have hd : bodyDirection c ⟨5, 0, 3⟩ = ⟨0, 0, 5⟩ := by
    unfold bodyDirection cartesianToPolarFCU cartesianToPolarHistogram
    rw [h2, h3, h4]
    have e1 : atan2 ((3 : ℝ) - 3) (Real.sqrt ((5 - 0) ^ 2 + (0 - 0) ^ 2)) = 0 := by
      unfold atan2
      rw [Complex.arg_eq_zero_iff]
      exact ⟨Real.sqrt_nonneg _, sub_self _⟩
    have e2 : atan2 ((5 : ℝ) - 0) (0 - 0) * radToDeg = 90 := by
      unfold atan2 radToDeg
      rw [show (⟨0 - 0, 5 - 0⟩ : ℂ) = ((5 : ℝ) : ℂ) * Complex.I by apply Complex.ext <;> simp, Complex.arg_real_mul _ (by norm_num), Complex.arg_I]
      field_simp
      norm_num
    dsimp only
    rw [e1, e2]
    have hs : Real.sqrt (((5 : ℝ) - 0) * (5 - 0) + (0 - 0) * (0 - 0) + (3 - 3) * (3 - 3)) = 5 := by
      rw [show ((5 : ℝ) - 0) * (5 - 0) + (0 - 0) * (0 - 0) + (3 - 3) * (3 - 3) = 5 ^ 2 by norm_num, Real.sqrt_sq (by norm_num)]
    rw [hs]
    rw [C03_wrapPolar_fixed ⟨-(0 * radToDeg), -90 + 90, 5⟩ (by norm_num) (by norm_num) (by norm_num) (by norm_num)]
    rw [C03_wrapPolar_fixed _ (by norm_num) (by norm_num) (by norm_num) (by norm_num)]
    norm_num
  rw [hd, h1]
  unfold pointInsideFOV pointInsideFOV1
  norm_num [wrap180]

/-- The node of `exampleFlies`, 20 and 21 seconds later: it has planned twice with a clear view. -/
noncomputable def exampleWaited : List NodeEvent := [.planStart exampleClear 21, .planEnd 21, .planStart exampleClear 22, .planEnd 22]

/-- A camera that measured nothing gives a clear view. -/
theorem exampleClear_clear (c : LpConfig) (p : V3 ℝ) : ClearView c p exampleClear := by
  intro cam hcam x y z h
  simp [exampleClear] at hcam
  subst hcam
  cases h

theorem exampleWaited_clear : ClearPlans exampleUninit exampleSaw exampleWaited := by
  intro pre f t post e
  have hcfg : newestConfig (exampleSaw ++ pre) = some (exampleTree 1) ∧ f = exampleClear := by
    unfold exampleWaited at e
    match pre, e with
    | [], e => injection e with e1 e2; injection e1 with e1 e3; exact ⟨rfl, e1.symm⟩
    | [x], e => injection e with e1 e2; injection e2 with e2 e3; cases e2
    | [x, y], e =>
      injection e with e1 e2; injection e2 with e2 e3; injection e3 with e3 e4
      subst e1; subst e2
      injection e3 with e3 e5
      exact ⟨rfl, e3.symm⟩
    | [x, y, z], e => injection e with e1 e2; injection e2 with e2 e3; injection e3 with e3 e4; injection e4 with e4 e5; cases e4
    | x :: y :: z :: w :: r, e => have := congrArg List.length e; simp at this
  obtain ⟨hcfg, rfl⟩ := hcfg
  exact ⟨_, hcfg, by norm_num [exampleTree, exampleSeenConfig], exampleClear_clear _ _⟩

/-- **C110, finding (reached).** There is a run in which the hypotheses of `C110_two_nodes_violated` come true with a path that does not lead to the goal: a point in the way to the
goal, 5 m ahead, is measured once, a path of two nodes around it is planned (a tree of one level), and then the view is clear and the point has been forgotten. For ever after, however
long the view is clear, the waypoints are towards `a`, the end of that path, and not towards the goal. -/
theorem C110_two_nodes_witness (Q : PriorityQueue (Candidate ℝ) Candidate.lt) : ∃ u l es s0 a, loopM (nodeStep Q) (nodeInit u l) es = some s0 ∧ s0.planning = false ∧
    s0.planner.cloud = [] ∧ s0.goals.goal.val = ⟨20, 0, 3⟩ ∧ (newestPose u es).1 = ⟨0, 0, 3⟩ ∧
    (∀ k, 0 < k → (⟨20, 0, 3⟩ : V3 ℝ) ≠ (⟨0, 0, 3⟩ : V3 ℝ).plus (V3.smul k (a.minus ⟨0, 0, 3⟩))) ∧
    (∀ later s s' now, loopM (nodeStep Q) s0 later = some s → nodeStep Q s (.send now) = some s' → ∀ m, s'.sent = s.sent ++ [m] → ClearPlans u es later →
      (∀ pre t post sp, later = pre ++ .send t :: post → loopM (nodeStep Q) s0 pre = some sp → NoClimb sp) →
      1 ≤ ((s.goals.goal.val).minus (newestPose u (es ++ later)).1).norm → OneMetreTowards (newestPose u (es ++ later)).1 a m.goto) ∧
    (∃ s s' m, loopM (nodeStep Q) s0 [.pose ⟨0, 0, 3⟩ ⟨1, 0, 0, 0⟩, .timer 22] = some s ∧ nodeStep Q s (.send 22) = some s' ∧ s'.sent = s.sent ++ [m] ∧
      OneMetreTowards ⟨0, 0, 3⟩ a m.goto) := by
  obtain ⟨s, a, h, hpath, hray, hmode, hland, hpl, hcmd, hgoal, htk, hld, hpg, hnav, hfov, hcloud⟩ := exampleSaw_path Q
  obtain ⟨s1, s2, a1, a2, a3, a4, a5, a6, a7, a8, a9, a10, a11, a12, a13, a14⟩ := exampleClear_plan Q _ _ _ s 21 h hpl hcmd 1 rfl hpg rfl
  have h2 : loopM (nodeStep Q) (nodeInit exampleUninit exampleLaunch) (exampleSaw ++ [.planStart exampleClear 21, .planEnd 21]) = some s2 := by
    rw [loopM_append', h]
    show (nodeStep Q s (.planStart exampleClear 21)).bind _ = _
    rw [a1]
    show (nodeStep Q s1 (.planEnd 21)).bind _ = _
    rw [a2]
    rfl
  obtain ⟨s3, s4, b1, b2, b3, b4, b5, b6, b7, b8, b9, b10, b11, b12, b13, b14⟩ := exampleClear_plan Q _ _ _ s2 22 h2 a3 a4 1 rfl a5 rfl
  have hlater : loopM (nodeStep Q) s exampleWaited = some s4 := by
    show (nodeStep Q s (.planStart exampleClear 21)).bind _ = _
    rw [a1]
    show (nodeStep Q s1 (.planEnd 21)).bind _ = _
    rw [a2]
    show (nodeStep Q s2 (.planStart exampleClear 22)).bind _ = _
    rw [b1]
    show (nodeStep Q s3 (.planEnd 22)).bind _ = _
    rw [b2]
    rfl
  have h4 : loopM (nodeStep Q) (nodeInit exampleUninit exampleLaunch) (exampleSaw ++ exampleWaited) = some s4 := by rw [loopM_append', h]; exact hlater
  have hcl := exampleWaited_clear
  -- the point is swept out of the memory
  have hempty2 : s2.planner.cloud = [] := by
    have e2 : s2.planner = s1.planner := by
      unfold nodeStep at a2
      dsimp only at a2
      split_ifs at a2
      obtain rfl := Option.some.inj a2
      rfl
    rw [e2]
    obtain ⟨x, hx, hr, -⟩ := plan_calls h a1
    have k := nodeKnows _ _ _ s h
    rw [loopM_append', k.calls] at hx
    have hx : loopM (lpStep Q) s.planner (updateCalls s exampleClear) = some x := hx
    have hst := (knows _ x (by rw [loopM_append', k.calls]; exact hx)).state _ _ _ (updateCalls_lasts s.calls s exampleClear).2.1
    have hxf : x.fovs = [⟨0, 0, 60, 45⟩] ∧ x.cloud = s.planner.cloud ∧ x.clouds = [[]] := by
      refine ⟨?_, (setters_keep hx (updateCalls_no_run s exampleClear)).1, ?_⟩
      · rw [fovs_after hx (updateCalls_no_run s exampleClear), hfov]
        unfold updateCalls
        cases s.goals.new_goal <;> rfl
      · have := clouds_known (s.calls ++ updateCalls s exampleClear) x (by rw [loopM_append', k.calls]; exact hx)
        rw [this, (updateCalls_lasts s.calls s exampleClear).2.2.1]
        rfl
    rw [List.eq_nil_iff_forall_not_mem]
    intro o ho
    rcases cloud_members hr o ho with ⟨-, hu⟩ | ⟨o', ho', -, -, hc⟩
    · rw [hxf.2.2] at hu
      simp [usableNew] at hu
    · rw [hxf.2.1] at ho'
      have e := hc.2.2
      rw [hcloud o' ho'] at e
      have hpose : (s.position, s.orientation) = (⟨0, 0, 3⟩, ⟨1, 0, 0, 0⟩) := k.pose
      have hp1 : s.position = ⟨0, 0, 3⟩ := congrArg Prod.fst hpose
      have hp2 : s.orientation = ⟨1, 0, 0, 0⟩ := congrArg Prod.snd hpose
      rw [exampleAhead _ hxf.1 (hst.1.trans hp1) (hst.2.2.1.trans (by rw [hp2]; unfold getYawFromQuaternion atan2; norm_num; left; rw [Complex.arg_eq_zero_iff]; norm_num)) (hst.2.2.2.1.trans (by rw [hp2]; unfold getPitchFromQuaternion; norm_num))] at e
      cases e
  have hcl2 : ClearPlans exampleUninit (exampleSaw ++ [.planStart exampleClear 21, .planEnd 21]) [.planStart exampleClear 22, .planEnd 22] := by
    intro pre f t post e
    obtain ⟨c, c1, c2, c3⟩ := hcl ([.planStart exampleClear 21, .planEnd 21] ++ pre) f t post (by rw [List.append_assoc, ← e]; rfl)
    rw [← List.append_assoc] at c1 c3
    exact ⟨c, c1, c2, c3⟩
  have hl2 : loopM (nodeStep Q) s2 [.planStart exampleClear 22, .planEnd 22] = some s4 := by
    show (nodeStep Q s2 (.planStart exampleClear 22)).bind _ = _
    rw [b1]
    show (nodeStep Q s3 (.planEnd 22)).bind _ = _
    rw [b2]
    rfl
  obtain ⟨hempty, hpath4, -⟩ := clear_run _ _ _ s2 h2 a3 hempty2 _ s4 hl2 hcl2
  have hpath2 : s2.planner.star.path = s.planner.star.path := by
    have hj := (path_step (by intro f t h; cases h) a2).1
    rw [hj.2.1]
    exact ((clear_plan h a1 (exampleTree 1) rfl (by norm_num [exampleTree, exampleSeenConfig]) (exampleClear_clear _ _)).2.1 (by rw [← hj.1]; exact hempty2)).1
  have hout : s4.planner.output.2.2 = [a, ⟨0, 0, 3⟩] := by
    show s4.planner.star.path = _
    rw [hpath4, hpath2]
    exact hpath
  have hm4 : s4.gen.1 = .TRY_PATH := b6.trans (a6.trans hmode)
  have hl4 : s4.gen.2.auto_land = false := b7.trans (a7.trans hland)
  have hg4 : s4.goals.goal.val = ⟨20, 0, 3⟩ := by rw [b8, a8]; exact hgoal
  have hv := fun later s s' now h1 h2 m hm hclear hclimb => C110_two_nodes_violated exampleUninit exampleLaunch _ s4 h4 b3 hempty a _ hout hm4 hl4 b14 later s s' now h1 h2 m hm hclear hclimb
  refine ⟨exampleUninit, exampleLaunch, _, s4, a, h4, b3, hempty, hg4, rfl, hray, ?_, ?_⟩
  · intro later s s' now h1 h2 m hm hc hn hg
    exact (hv later s s' now h1 h2 m hm hc hn).2 hg
  · have n20 : ((⟨20, 0, 3⟩ : V3 ℝ).minus ⟨0, 0, 3⟩).norm = 20 := by
      unfold V3.norm V3.dot V3.minus
      norm_num
      rw [show (400 : ℝ) = 20 ^ 2 by norm_num, Real.sqrt_sq (by norm_num)]
    obtain ⟨s5, r1, r2, r3, r4⟩ : ∃ s5, loopM (nodeStep Q) s4 [.pose ⟨0, 0, 3⟩ ⟨1, 0, 0, 0⟩, .timer 22] = some s5 ∧ nodeStep Q s5 (.send 22) = some (sendStep s5 22) ∧
        s5.last_wp_time = 22 ∧ s5.goals = s4.goals := by
      have hyes : ∀ x : NodeSt, x.cmd.isSome = true ∧ x.position_received = true → nodeStep Q x (.send 22) = some (sendStep x 22) := fun x hx => if_pos hx
      refine ⟨{ s4 with position := ⟨0, 0, 3⟩, orientation := ⟨1, 0, 0, 0⟩, position_received := true, cmd := some 22 }, ?_, hyes _ ⟨rfl, rfl⟩, b12, rfl⟩
      show (nodeStep Q { s4 with position := ⟨0, 0, 3⟩, orientation := ⟨1, 0, 0, 0⟩, position_received := true } (.timer 22)).bind (fun x => some x) = _
      rw [show nodeStep Q { s4 with position := ⟨0, 0, 3⟩, orientation := ⟨1, 0, 0, 0⟩, position_received := true } (.timer 22) =
        some { s4 with position := ⟨0, 0, 3⟩, orientation := ⟨1, 0, 0, 0⟩, position_received := true, cmd := some 22 } from if_pos b4]
      rfl
    obtain ⟨a1, -⟩ := sendStep_active s5 22
    obtain ⟨-, a1, -⟩ := a1 (Or.inl (by rw [r3]; norm_num))
    refine ⟨s5, sendStep s5 22, _, r1, r2, a1, ?_⟩
    refine (hv _ s5 _ 22 r1 r2 _ a1 ?_ ?_).2 ?_
    · intro pre f t post e
      match pre, e with
      | [], e => injection e with e1 e2; cases e1
      | [x], e => injection e with e1 e2; injection e2 with e2 e3; cases e2
      | x :: y :: r, e => have := congrArg List.length e; simp at this
    · intro pre t post sp e
      match pre, e with
      | [], e => injection e with e1 e2; cases e1
      | [x], e => injection e with e1 e2; injection e2 with e2 e3; cases e2
      | x :: y :: r, e => have := congrArg List.length e; simp at this
    · rw [r4, hg4]
      show (1 : ℝ) ≤ ((⟨20, 0, 3⟩ : V3 ℝ).minus ⟨0, 0, 3⟩).norm
      rw [n20]; norm_num

/-- The hypotheses of `C110_forgotten` are met: a point seen at time 1, clear views at times 21 and 22, and a maximum age of 20 seconds. -/
example (Q : PriorityQueue (Candidate ℝ) Candidate.lt) : ∃ s s4, loopM (nodeStep Q) (nodeInit exampleUninit exampleLaunch) exampleSaw = some s ∧
    loopM (nodeStep Q) s exampleWaited = some s4 ∧ s4.planner.cloud = [] := by
  obtain ⟨s, a, h, hpath, hray, hmode, hland, hpl, hcmd, hgoal, htk, hld, hpg, hnav, hfov, hcloud⟩ := exampleSaw_path Q
  obtain ⟨s1, s2, a1, a2, a3, a4, a5, a6, a7, a8, a9, a10, a11, a12, a13, a14⟩ := exampleClear_plan Q _ _ _ s 21 h hpl hcmd 1 rfl hpg rfl
  have h2 : loopM (nodeStep Q) (nodeInit exampleUninit exampleLaunch) (exampleSaw ++ [.planStart exampleClear 21, .planEnd 21]) = some s2 := by
    rw [loopM_append', h]
    show (nodeStep Q s (.planStart exampleClear 21)).bind _ = _
    rw [a1]
    show (nodeStep Q s1 (.planEnd 21)).bind _ = _
    rw [a2]
    rfl
  obtain ⟨s3, s4, b1, b2, b3, b4, b5, b6, b7, b8, b9, b10, b11, b12, b13, b14⟩ := exampleClear_plan Q _ _ _ s2 22 h2 a3 a4 1 rfl a5 rfl
  have hlater : loopM (nodeStep Q) s exampleWaited = some s4 := by
    show (nodeStep Q s (.planStart exampleClear 21)).bind _ = _
    rw [a1]
    show (nodeStep Q s1 (.planEnd 21)).bind _ = _
    rw [a2]
    show (nodeStep Q s2 (.planStart exampleClear 22)).bind _ = _
    rw [b1]
    show (nodeStep Q s3 (.planEnd 22)).bind _ = _
    rw [b2]
    rfl
  exact ⟨s, s4, h, hlater, C110_forgotten exampleUninit exampleLaunch exampleSaw s h 1 (by
      intro f t ht
      simp [exampleSaw, exampleUp, exampleRound] at ht
      rw [ht.2]) [] [.planEnd 21] [.planEnd 22] exampleClear exampleClear 21 22 s4 hlater exampleWaited_clear (by intro f t h; simp at h) (by
      intro c hc
      have hc : some (exampleTree 1) = some c := hc
      obtain rfl := Option.some.inj hc
      norm_num [exampleTree, exampleSeenConfig])⟩

/-- Events that neither change the goal nor the mode of the vehicle. -/
theorem calm_run (ms : List NodeEvent) : ∀ x y : NodeSt, loopM (nodeStep Q) x ms = some y →
    (∀ e ∈ ms, (∃ f t, e = .planStart f t) ∨ (∃ t, e = .planEnd t) ∨ (∃ p q, e = .pose p q) ∨ (∃ t, e = .timer t) ∨ (∃ t, e = .send t)) → NoClimb x → x.goals.is_takeoff = false →
    x.goals.is_land = false → x.nav = .mission → NoClimb y := by
  intro x y h hn hx h1 h2 h3
  obtain ⟨g1, g2, g3, -⟩ := goals_run ms x y h (by
    intro e he
    rcases hn e he with ⟨f, t, rfl⟩ | ⟨t, rfl⟩ | ⟨p, q, rfl⟩ | ⟨t, rfl⟩ | ⟨t, rfl⟩ <;> exact fun h => h)
  have hnav : y.nav = x.nav := by
    clear g1 g2 g3 hx h1 h2 h3
    induction ms using List.reverseRecOn generalizing y with
    | nil => obtain rfl := Option.some.inj h; rfl
    | append_singleton ms e ih =>
      obtain ⟨z, z1, z2⟩ := loopM_snoc h
      refine Eq.trans ?_ (ih z z1 (fun e he => hn e (List.mem_append_left _ he)))
      rcases hn e (by simp) with ⟨f, t, rfl⟩ | ⟨t, rfl⟩ | ⟨p, q, rfl⟩ | ⟨t, rfl⟩ | ⟨t, rfl⟩
      · unfold nodeStep at z2
        dsimp only at z2
        split_ifs at z2
        rw [Option.map_eq_some_iff] at z2
        obtain ⟨pl, -, rfl⟩ := z2
        rfl
      · unfold nodeStep at z2
        dsimp only at z2
        split_ifs at z2
        obtain rfl := Option.some.inj z2
        rfl
      · obtain rfl := Option.some.inj z2
        rfl
      · unfold nodeStep at z2
        dsimp only at z2
        split_ifs at z2
        obtain rfl := Option.some.inj z2
        rfl
      · unfold nodeStep at z2
        dsimp only at z2
        split_ifs at z2
        obtain rfl := Option.some.inj z2
        exact (sendStep_keeps z t).2.2.2.2.1
  unfold NoClimb AltitudeNeeded
  rw [g2, g3, h1, h2, hnav, h3]
  simp

/-- The events of the example below: a plan with a clear view and two rounds. -/
noncomputable def exampleFree : List NodeEvent :=
  [.planStart exampleClear 1, .planEnd 1, .pose ⟨0, 0, 3⟩ ⟨1, 0, 0, 0⟩, .timer 1, .send 1, .pose ⟨0, 0, 3⟩ ⟨1, 0, 0, 0⟩, .timer 1, .send 1,
    .pose ⟨0, 0, 3⟩ ⟨1, 0, 0, 0⟩, .timer 1]

/-- The hypotheses of `C110_straight_to_goal_partial` are met: the goal is 20 m to the east, the view is clear, and the third waypoint is one metre to the east. -/
example (Q : PriorityQueue (Candidate ℝ) Candidate.lt) : ∃ s0 s s' m, loopM (nodeStep Q) (nodeInit exampleUninit exampleLaunch) exampleUp = some s0 ∧
    loopM (nodeStep Q) s0 exampleFree = some s ∧ nodeStep Q s (.send 1) = some s' ∧ s'.sent = s.sent ++ [m] ∧ OneMetreTowards ⟨0, 0, 3⟩ ⟨20, 0, 3⟩ m.goto := by
  have h : ∃ s0, loopM (nodeStep Q) (nodeInit exampleUninit exampleLaunch) exampleUp = some s0 ∧ s0.planning = false ∧ s0.cmd = none ∧ s0.start_time = 0 ∧
      s0.goals = goalInit exampleUninit exampleLaunch ∧ s0.nav = navStateOf "AUTO.MISSION" := ⟨_, rfl, rfl, rfl, rfl, rfl, rfl⟩
  obtain ⟨s0, h0, f1, f2, f3, f4, f5⟩ := h
  have hcl0 : s0.planner.cloud = [] ∧ s0.planner.star.path = [] := by
    have k := (nodeKnows _ _ _ s0 h0).calls
    have hn : ∀ e ∈ s0.calls, ∀ t, e ≠ .run t := by
      intro e he t h
      obtain ⟨f, hf⟩ := runs_are_plans _ _ _ s0 h0 t (by rw [← h]; exact he)
      simp [exampleUp] at hf
    obtain ⟨k1, k2, -⟩ := setters_keep k hn
    rw [k1, k2]
    exact ⟨rfl, rfl⟩
  have hg : plannedGoal s0 = ⟨20, 0, 3⟩ := by
    unfold plannedGoal
    rw [f4]
    rfl
  obtain ⟨s1, s2, a1, a2, a3, a4, a5, a6, a7, a8, a9, a10, a11, a12, a13, a14⟩ := exampleClear_plan Q _ _ _ s0 1 h0 f1 f2 1 rfl hg rfl
  have hst : s2.start_time = 0 := by
    have : loopM (nodeStep Q) (nodeInit exampleUninit exampleLaunch) (exampleUp ++ [.planStart exampleClear 1, .planEnd 1]) = some s2 := by
      rw [loopM_append', h0]
      show (nodeStep Q s0 (.planStart exampleClear 1)).bind _ = _
      rw [a1]
      show (nodeStep Q s1 (.planEnd 1)).bind _ = _
      rw [a2]
      rfl
    exact (nodeKnows _ _ _ s2 this).start
  obtain ⟨x1, y1, r1a, r1, e1, -, -, w1, c1, t1, -⟩ := early_round (Q := Q) s2 ⟨0, 0, 3⟩ ⟨1, 0, 0, 0⟩ 1 a4 (by rw [hst]; norm_num)
  obtain ⟨x2, y2, r2a, r2, e2, -, -, w2, c2, t2, -⟩ := early_round (Q := Q) y1 ⟨0, 0, 3⟩ ⟨1, 0, 0, 0⟩ 1 c1 (by rw [t1, hst]; norm_num)
  obtain ⟨x3, y3, r3a, r3, e3, -, -, w3, c3, t3, -⟩ := early_round (Q := Q) y2 ⟨0, 0, 3⟩ ⟨1, 0, 0, 0⟩ 1 c2 (by rw [t2, t1, hst]; norm_num)
  have hrun : loopM (nodeStep Q) s0 exampleFree = some x3 := by
    show (nodeStep Q s0 (.planStart exampleClear 1)).bind _ = _
    rw [a1]
    show (nodeStep Q s1 (.planEnd 1)).bind _ = _
    rw [a2]
    show loopM (nodeStep Q) s2 ([.pose ⟨0, 0, 3⟩ ⟨1, 0, 0, 0⟩, .timer 1] ++ ([.send 1] ++ ([.pose ⟨0, 0, 3⟩ ⟨1, 0, 0, 0⟩, .timer 1] ++ ([.send 1] ++ [.pose ⟨0, 0, 3⟩ ⟨1, 0, 0, 0⟩, .timer 1])))) = _
    rw [loopM_append', r1a]
    show loopM (nodeStep Q) x1 ([.send 1] ++ _) = _
    rw [loopM_append', loopM_one, r1]
    show loopM (nodeStep Q) y1 (_ ++ _) = _
    rw [loopM_append', r2a]
    show loopM (nodeStep Q) x2 ([.send 1] ++ _) = _
    rw [loopM_append', loopM_one, r2]
    exact r3a
  have hcalm : ∀ e ∈ exampleFree ++ [.send 1], (∃ f t, e = .planStart f t) ∨ (∃ t, e = .planEnd t) ∨ (∃ p q, e = .pose p q) ∨ (∃ t, e = .timer t) ∨ (∃ t, e = .send t) := by
    intro e he
    simp [exampleFree] at he
    rcases he with rfl | rfl | rfl | rfl | rfl | rfl | rfl | rfl | rfl | rfl | rfl <;> simp
  have hm3 : y3.sent = x3.sent ++ [messageOf (wgCycle y2.gen (inputOf { y2 with position := ⟨0, 0, 3⟩, orientation := ⟨1, 0, 0, 0⟩ } false) 1).2 1] := by rw [e3]; exact w3
  have hfree : SendsFree Q s0 (exampleFree ++ [.send 1]) := by
    intro pre t post sp e hsp
    refine ⟨?_, Or.inl (by show s0.planner.star.path.length < 2; rw [hcl0.2]; simp)⟩
    refine calm_run pre s0 sp hsp (fun e' he' => hcalm e' (by rw [e]; exact List.mem_append_left _ he')) ?_ (by rw [f4]; rfl) (by rw [f4]; rfl) (by rw [f5]; rfl)
    unfold NoClimb AltitudeNeeded
    rw [f4, f5]
    simp [goalInit, exampleLaunch, navStateOf]
  have hclear : ClearPlans exampleUninit exampleUp exampleFree := by
    intro pre f t post e
    have : pre = [] ∧ f = exampleClear := by
      match pre, e with
      | [], e => injection e with e1 e2; injection e1 with e1 e3; exact ⟨rfl, e1.symm⟩
      | x :: pre, e =>
        injection e with e1 e2
        have : NodeEvent.planStart f t ∈ pre ++ .planStart f t :: post := by simp
        have e2 : _ = pre ++ .planStart f t :: post := e2
        rw [← e2] at this
        simp at this
    obtain ⟨rfl, rfl⟩ := this
    exact ⟨_, rfl, by norm_num [exampleTree, exampleSeenConfig], exampleClear_clear _ _⟩
  obtain ⟨-, hw, -⟩ := C110_straight_to_goal_partial _ _ _ s0 h0 f1 hcl0.1 exampleFree x3 y3 1 hrun r3 _ hm3 hclear hfree
    (by rw [e3, w2, w1, a13]; simp)
  have hgoal : x3.goals.goal.val = ⟨20, 0, 3⟩ := by
    obtain ⟨g1, -⟩ := goals_run _ _ _ hrun (by
      intro e he
      rcases hcalm e (List.mem_append_left _ he) with ⟨f, t, rfl⟩ | ⟨t, rfl⟩ | ⟨p, q, rfl⟩ | ⟨t, rfl⟩ | ⟨t, rfl⟩ <;> exact fun h => h)
    rw [g1, f4]
    rfl
  refine ⟨s0, x3, y3, _, h0, hrun, r3, hm3, ?_⟩
  rw [hgoal] at hw
  refine hw ?_
  have n20 : ((⟨20, 0, 3⟩ : V3 ℝ).minus ⟨0, 0, 3⟩).norm = 20 := by
    unfold V3.norm V3.dot V3.minus
    norm_num
    rw [show (400 : ℝ) = 20 ^ 2 by norm_num, Real.sqrt_sq (by norm_num)]
  show (1 : ℝ) ≤ ((⟨20, 0, 3⟩ : V3 ℝ).minus ⟨0, 0, 3⟩).norm
  rw [n20]; norm_num

end Avoidance
