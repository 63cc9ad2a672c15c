import Verif.NodeRunProps

/-!
# The speed of the local planner, end to end (C92)
-/

namespace Avoidance

variable {Q : PriorityQueue (Candidate ℝ) Candidate.lt}

/-- The newest event of a kind is the default or in the history. -/
theorem newest_mem' {A : Type} (pick : NodeEvent → Option A) (d : A) (es : List NodeEvent) (a : A) (h : newest pick d es = a) (hd : a ≠ d) :
    ∃ e ∈ es, pick e = some a := by
  unfold newest at h
  cases hl : (es.filterMap pick).getLast? with
  | none => rw [hl] at h; exact absurd h.symm hd
  | some x =>
    rw [hl] at h
    have hx := List.mem_of_getLast? hl
    rw [List.mem_filterMap] at hx
    obtain ⟨e, he, hp⟩ := hx
    exact ⟨e, he, hp.trans (congrArg some h)⟩

theorem newest_mem {A : Type} {pick : NodeEvent → Option A} (mk : A → NodeEvent) (d : A) (es : List NodeEvent)
    (h : ∀ e a, pick e = some a → e = mk a) : newest pick d es = d ∨ mk (newest pick d es) ∈ es := by
  by_cases hd : newest pick d es = d
  · exact Or.inl hd
  · obtain ⟨e, he, hp⟩ := newest_mem' pick d es _ rfl hd
    rw [← h e _ hp]
    exact Or.inr he

theorem calls_px4 (cs : List LpEvent) (s : NodeSt) (frame : List (List (V3 (Flt ℝ)) × FOV ℝ)) (now : ℝ) :
    lastPx4 (cs ++ (updateCalls s frame ++ [LpEvent.run now])) = some s.px4 ∧
    lastMission (cs ++ (updateCalls s frame ++ [LpEvent.run now])) = s.mission := by
  unfold updateCalls
  have e : ∀ X Y Z W : List LpEvent, cs ++ (X ++ Y ++ Z ++ W ++ [LpEvent.px4 s.px4, .mission s.mission] ++ [.run now]) =
      (cs ++ X ++ Y ++ Z ++ W) ++ [.px4 s.px4, .mission s.mission, .run now] := by intros; simp
  rw [e]
  unfold lastPx4 lastMission
  rw [List.filterMap_append, List.filterMap_append]
  simp

/-- **C92, the speed handed over with a plan.** Once a plan has been handed over, the cruise speed the setpoints use is that of C33, for the
autopilot parameters, the configured sensor range and the mission speed the node had when it started that plan. -/
theorem C92_planned_speed (u : Uninit) (l : Launch) (es : List NodeEvent) (s : NodeSt)
    (h : loopM (nodeStep Q) (nodeInit u l) es = some s) (before after : List NodeEvent) (t : ℝ) (he : es = before ++ .planEnd t :: after)
    (ha : ∀ e ∈ after, ¬ IsPlanEnd e) :
    ∃ pre frame t0 mid, before = pre ++ .planStart frame t0 :: mid ∧ (∀ e ∈ mid, ¬ IsPlanEnd e ∧ ∀ f t, e ≠ .planStart f t) ∧
      ∀ c, newestConfig pre = some c → s.gen.2.planner.cruise_velocity =
        some (cruiseVelocity ⟨(newestPx4 l pre).acc_hor, (newestPx4 l pre).jerk_max, (newestPx4 l pre).xy_cruise⟩ c.max_sensor_range
          (newestMission pre)) := by
  rw [he, show before ++ NodeEvent.planEnd t :: after = (before ++ [.planEnd t]) ++ after by simp, loopM_append',
    Option.bind_eq_some_iff] at h
  obtain ⟨s2, h2, h3⟩ := h
  obtain ⟨s1, h1, h4⟩ := loopM_snoc h2
  unfold nodeStep at h4
  dsimp only at h4
  split_ifs at h4 with hp
  obtain rfl := Option.some.inj h4
  obtain ⟨pre, frame, t0, mid, s0, g1, g2, g3, g4, g5⟩ := planning_since u l before s1 h1 hp.1
  refine ⟨pre, frame, t0, mid, g1, g3, ?_⟩
  intro c hc
  have k := nodeKnows u l pre s0 g4
  rw [gen_planner_run after _ _ h3 ha]
  show some s1.planner.output.1 = _
  congr 1
  have hcalls : loopM (lpStep Q) lpInit (s0.calls ++ (updateCalls s0 frame ++ [.run t0])) = some s1.planner := by
    rw [loopM_append', k.calls]
    exact g5
  obtain ⟨c1, c2⟩ := calls_px4 s0.calls s0 frame t0
  rw [C86_speed _ _ hcalls c (by rw [updateCalls_config, k.config, hc]) _ c1, c2, k.px4, k.mission]

/-- The cruise speeds of all plans started in a history are between 0 and `V`, every plan was started after a configuration, and all
cameras are described sensibly. -/
def PlansWithin (V : ℝ) (l : Launch) (es : List NodeEvent) : Prop :=
  ∀ pre f t post, es = pre ++ .planStart f t :: post → FovsOk (f.map (·.2)) ∧ ∃ c, newestConfig pre = some c ∧
    0 ≤ cruiseVelocity ⟨(newestPx4 l pre).acc_hor, (newestPx4 l pre).jerk_max, (newestPx4 l pre).xy_cruise⟩ c.max_sensor_range
      (newestMission pre) ∧
    cruiseVelocity ⟨(newestPx4 l pre).acc_hor, (newestPx4 l pre).jerk_max, (newestPx4 l pre).xy_cruise⟩ c.max_sensor_range
      (newestMission pre) ≤ V

theorem PlansWithin.prefix {V : ℝ} {l : Launch} {es fs : List NodeEvent} (h : PlansWithin V l (es ++ fs)) : PlansWithin V l es := by
  intro pre f t post e
  exact h pre f t (post ++ fs) (by rw [e]; simp)

theorem planEnd_split (es : List NodeEvent) : (∀ e ∈ es, ¬ IsPlanEnd e) ∨
    ∃ before t after, es = before ++ .planEnd t :: after ∧ (∀ e ∈ after, ¬ IsPlanEnd e) := by
  rcases newestPlan_split es with ⟨-, h⟩ | ⟨b, t, a, h1, h2, -⟩
  · exact Or.inl h
  · exact Or.inr ⟨b, t, a, h1, h2⟩

theorem wgSetFOV_ok (L : List (FOV ℝ)) (i : ℕ) (f : FOV ℝ) (hi : i ≤ L.length) (h : FovsOk L) (hf : 0 < f.hFov ∧ |f.yaw| ≤ 360) :
    FovsOk (wgSetFOV L i f) ∧ i + 1 ≤ (wgSetFOV L i f).length := by
  unfold wgSetFOV
  split_ifs with hc
  · refine ⟨?_, by rw [List.length_set]; omega⟩
    intro g hg
    rcases List.mem_or_eq_of_mem_set hg with hg | rfl
    · exact h g hg
    · exact hf
  · have e : i - L.length = 0 := by omega
    rw [e]
    refine ⟨?_, by simp; omega⟩
    intro g hg
    simp only [List.replicate_zero, List.append_nil, List.mem_append, List.mem_singleton] at hg
    rcases hg with hg | rfl
    · exact h g hg
    · exact hf

theorem setFOVs_ok (frame : List (List (V3 (Flt ℝ)) × FOV ℝ)) (hf : FovsOk (frame.map (·.2))) : ∀ (k : ℕ) (L : List (FOV ℝ)), k ≤ L.length →
    FovsOk L → FovsOk ((frame.zipIdx k).foldl (fun l x => wgSetFOV l x.2 x.1.2) L) := by
  induction frame with
  | nil => intro k L _ h; exact h
  | cons f frame ih =>
    intro k L hk h
    rw [List.zipIdx_cons, List.foldl_cons]
    obtain ⟨a, b⟩ := wgSetFOV_ok L k f.2 hk h (hf f.2 (by simp))
    exact ih (fun g hg => hf g (by rw [List.map_cons]; exact List.mem_cons_of_mem _ hg)) (k + 1) _ b a

/-- The cameras the generator knows are described sensibly if all frames are. -/
theorem gen_fovs_ok (u : Uninit) (l : Launch) (es : List NodeEvent) : ∀ s, loopM (nodeStep Q) (nodeInit u l) es = some s →
    (∀ f t, NodeEvent.planStart f t ∈ es → FovsOk (f.map (·.2))) → FovsOk s.gen.2.fovs := by
  induction es using List.reverseRecOn with
  | nil =>
    intro s h _
    obtain rfl := Option.some.inj h
    intro f hf
    cases hf
  | append_singleton es e ih =>
    intro s' h hf
    obtain ⟨s, h1, h2⟩ := loopM_snoc h
    have k := ih s h1 (fun f t hm => hf f t (List.mem_append_left _ hm))
    cases e with
    | planStart f t =>
      unfold nodeStep at h2
      dsimp only at h2
      split_ifs at h2
      rw [Option.map_eq_some_iff] at h2
      obtain ⟨pl, -, rfl⟩ := h2
      exact setFOVs_ok f (hf f t (by simp)) 0 _ (Nat.zero_le _) k
    | config c a b t =>
      unfold nodeStep at h2
      dsimp only at h2
      split_ifs at h2
      obtain rfl := Option.some.inj h2
      exact k
    | planEnd t =>
      unfold nodeStep at h2
      dsimp only at h2
      split_ifs at h2
      obtain rfl := Option.some.inj h2
      exact k
    | timer t =>
      unfold nodeStep at h2
      dsimp only at h2
      split_ifs at h2
      obtain rfl := Option.some.inj h2
      exact k
    | poll t =>
      unfold nodeStep at h2
      dsimp only at h2
      rw [Option.bind_eq_some_iff] at h2
      obtain ⟨t0, -, h2⟩ := h2
      split_ifs at h2 <;> obtain rfl := Option.some.inj h2 <;> exact k
    | send t =>
      unfold nodeStep at h2
      dsimp only at h2
      split_ifs at h2
      obtain rfl := Option.some.inj h2
      obtain ⟨a1, a2⟩ := sendStep_active s t
      by_cases ha : t - s.last_wp_time ≤ 1 / 2 ∨ t - s.start_time ≤ 5
      · rw [(a1 ha).1, (wgCycle_params _ _ _).2.1]; exact k
      · rw [(a2 ha).1]; exact k
    | _ =>
      obtain rfl := Option.some.inj h2
      exact k

/-- The generator's cruise speed is between 0 and `V`, if it is a number. -/
theorem gen_cruise (V : ℝ) (u : Uninit) (l : Launch) (es : List NodeEvent) (s : NodeSt) (h : loopM (nodeStep Q) (nodeInit u l) es = some s)
    (hu : ∀ c, u.cruise_velocity = some c → 0 ≤ c ∧ c ≤ V) (hp : PlansWithin V l es) :
    ∀ c, s.gen.2.planner.cruise_velocity = some c → 0 ≤ c ∧ c ≤ V := by
  intro c hc
  rcases planEnd_split es with hn | ⟨before, t, after, e, ha⟩
  · rw [(C91_plan_used u l es s h).1 hn] at hc
    exact hu c hc
  · obtain ⟨pre, frame, t0, mid, g1, -, g3⟩ := C92_planned_speed u l es s h before after t e ha
    obtain ⟨-, cf, q1, q2, q3⟩ := hp pre frame t0 (mid ++ .planEnd t :: after) (by rw [e, g1]; simp)
    rw [g3 cf q1] at hc
    obtain rfl := Option.some.inj hc
    exact ⟨q2, q3⟩

/-- The generator's speed changes only by rounds of the command loop. -/
theorem speed_step {s s' : NodeSt} {e : NodeEvent} (he : ∀ t, e ≠ .send t) (h : nodeStep Q s e = some s') :
    s'.gen.2.speed = s.gen.2.speed := by
  cases e with
  | send t => exact absurd rfl (he t)
  | config c a b t =>
    unfold nodeStep at h
    dsimp only at h
    split_ifs at h
    obtain rfl := Option.some.inj h
    rfl
  | planStart f t =>
    unfold nodeStep at h
    dsimp only at h
    split_ifs at h
    rw [Option.map_eq_some_iff] at h
    obtain ⟨pl, -, rfl⟩ := h
    rfl
  | planEnd t =>
    unfold nodeStep at h
    dsimp only at h
    split_ifs at h
    obtain rfl := Option.some.inj h
    rfl
  | timer t =>
    unfold nodeStep at h
    dsimp only at h
    split_ifs at h
    obtain rfl := Option.some.inj h
    rfl
  | poll t =>
    unfold nodeStep at h
    dsimp only at h
    rw [Option.bind_eq_some_iff] at h
    obtain ⟨t0, -, h⟩ := h
    split_ifs at h <;> obtain rfl := Option.some.inj h <;> rfl
  | _ => obtain rfl := Option.some.inj h; rfl

/-- **C92, bounded speed.** Let `V` be at least the 2 m/s used without a plan. If the cruise speeds of all plans are between 0 and `V` (and so is
what the memory happened to hold before the first plan, if it is a number), then the speed of the setpoints stays between 0 and `V`,
after any history. -/
theorem C92_speed_partial (V : ℝ) (hV : 2 ≤ V) (u : Uninit) (l : Launch) (es : List NodeEvent) : ∀ s,
    loopM (nodeStep Q) (nodeInit u l) es = some s → (∀ c, u.cruise_velocity = some c → 0 ≤ c ∧ c ≤ V) → PlansWithin V l es →
    0 ≤ s.gen.2.speed ∧ s.gen.2.speed ≤ V := by
  induction es using List.reverseRecOn with
  | nil =>
    intro s h _ _
    obtain rfl := Option.some.inj h
    exact ⟨le_refl (0 : ℝ), by show (0 : ℝ) ≤ V; linarith⟩
  | append_singleton es e ih =>
    intro s' h hu hp
    obtain ⟨s, h1, h2⟩ := loopM_snoc h
    obtain ⟨k0, k1⟩ := ih s h1 hu hp.prefix
    by_cases he : ∀ t, e ≠ .send t
    · rw [speed_step he h2]; exact ⟨k0, k1⟩
    · push Not at he
      obtain ⟨t, rfl⟩ := he
      have hf : FovsOk s.gen.2.fovs := gen_fovs_ok u l es s h1 (fun f t hm => by
        obtain ⟨a, b, e⟩ := List.append_of_mem hm
        exact (hp.prefix a f t b e).1)
      have hc := gen_cruise V u l es s h1 hu hp.prefix
      unfold nodeStep at h2
      dsimp only at h2
      split_ifs at h2
      obtain rfl := Option.some.inj h2
      obtain ⟨a1, a2⟩ := sendStep_active s t
      by_cases ha : t - s.last_wp_time ≤ 1 / 2 ∨ t - s.start_time ≤ 5
      · rw [(a1 ha).1]
        exact C38_speed_cycle V hV s.gen _ t hf k0 k1 hc
      · rw [(a2 ha).1]; exact ⟨k0, k1⟩

/-! ### Landing -/

theorem targetOf_land (st : PlannerState) (s : WgState) : (targetOf st s).is_land = s.is_land := by
  cases st
  · rfl
  · exact (altTarget_frame s).2.2.2.2.2.1
  · rfl
  · rfl

/-- A landing only starts in `AUTO.LAND` or with a land item of the mission. -/
theorem wgRun_land (st : PlannerState) (s : WgState) : (wgRun st s).2.auto_land = true →
    s.auto_land = true ∨ s.nav = .auto_land ∨ (s.nav = .mission ∧ s.is_land = true) := by
  obtain ⟨t1, t2, t3, t4⟩ := targetOf_reach st s
  obtain ⟨m1, -⟩ := targetOf_more st s
  have tl := targetOf_land st s
  have e := getPathMsg_frame st (targetOf st s)
  have plain : (getPathMsg st (targetOf st s)).auto_land = true → s.auto_land = true ∨ s.nav = .auto_land ∨ (s.nav = .mission ∧ s.is_land = true) :=
    fun h => Or.inl (by rw [e.auto_land, m1] at h; exact h)
  have alt : (isAltitudeChange (getPathMsg st (targetOf st s))).2.auto_land = true →
      s.auto_land = true ∨ s.nav = .auto_land ∨ (s.nav = .mission ∧ s.is_land = true) := by
    intro h
    have h3 := (C37_altitude_change (getPathMsg st (targetOf st s))).2.1
    rw [e.nav, e.is_land, t2, tl] at h3
    exact Or.inr (h3.1 h)
  unfold wgRun
  cases st <;> dsimp only
  · unfold runTryPath
    dsimp only
    change (if (getPathMsg .TRY_PATH (targetOf .TRY_PATH s)).loiter = true then _ else _ : Transition × WgState).2.auto_land = true → _
    by_cases h1 : (getPathMsg .TRY_PATH (targetOf .TRY_PATH s)).loiter = true
    · rw [if_pos h1]; exact plain
    · rw [if_neg h1]; split_ifs <;> exact alt
  · unfold runAltitudeChange
    dsimp only
    change (if (getPathMsg .ALTITUDE_CHANGE (targetOf .ALTITUDE_CHANGE s)).loiter = true then _ else _ : Transition × WgState).2.auto_land = true → _
    by_cases h1 : (getPathMsg .ALTITUDE_CHANGE (targetOf .ALTITUDE_CHANGE s)).loiter = true
    · rw [if_pos h1]; exact plain
    · rw [if_neg h1]; split_ifs <;> exact alt
  · unfold runLoiter
    dsimp only
    change (if (getPathMsg .LOITER (targetOf .LOITER s)).loiter = true then _ else _ : Transition × WgState).2.auto_land = true → _
    by_cases h1 : (getPathMsg .LOITER (targetOf .LOITER s)).loiter = true
    · rw [if_pos h1]; exact plain
    · rw [if_neg h1]; exact plain
  · unfold runDirect
    dsimp only
    split_ifs <;> first | exact plain | exact alt

/-- Neither the vehicle's mode nor a mission item asks for a landing. -/
def NoLanding (es : List NodeEvent) : Prop :=
  (∀ a, NodeEvent.state a "AUTO.LAND" ∉ es) ∧ ∀ m, NodeEvent.fcu m ∈ es → m.command0 ≠ 21

theorem navStateOf_land {m : String} (h : navStateOf m = .auto_land) : m = "AUTO.LAND" := by
  unfold navStateOf at h
  split_ifs at h with h1 h2 h3; exact h3

theorem no_landing (u : Uninit) (l : Launch) (es : List NodeEvent) : ∀ s, loopM (nodeStep Q) (nodeInit u l) es = some s →
    NoLanding es → s.nav ≠ .auto_land ∧ s.goals.is_land = false ∧ s.gen.2.auto_land = false := by
  induction es using List.reverseRecOn with
  | nil =>
    intro s h _
    obtain rfl := Option.some.inj h
    exact ⟨fun h => (by cases h), rfl, rfl⟩
  | append_singleton es e ih =>
    intro s' h hn
    obtain ⟨s, h1, h2⟩ := loopM_snoc h
    obtain ⟨k1, k2, k3⟩ := ih s h1 ⟨fun a hm => hn.1 a (List.mem_append_left _ hm), fun m hm => hn.2 m (List.mem_append_left _ hm)⟩
    cases e with
    | state a m =>
      obtain rfl := Option.some.inj h2
      refine ⟨fun hx => ?_, k2, k3⟩
      have := navStateOf_land hx
      subst this
      exact hn.1 a (by simp)
    | topic ms =>
      obtain rfl := Option.some.inj h2
      refine ⟨k1, ?_, k3⟩
      show (updateGoal s.goals ms).is_land = false
      unfold updateGoal
      split <;> exact k2
    | fcu m =>
      obtain rfl := Option.some.inj h2
      refine ⟨k1, ?_, k3⟩
      show (fcuInputGoal s.goals m).is_land = false
      have hc := hn.2 m (by simp)
      unfold fcuInputGoal fcuSecond fcuFirst
      split_ifs <;> first | exact decide_eq_false hc | exact k2
    | config c a b t =>
      unfold nodeStep at h2
      dsimp only at h2
      split_ifs at h2
      obtain rfl := Option.some.inj h2
      exact ⟨k1, k2, k3⟩
    | planStart f t =>
      unfold nodeStep at h2
      dsimp only at h2
      split_ifs at h2
      rw [Option.map_eq_some_iff] at h2
      obtain ⟨pl, -, rfl⟩ := h2
      exact ⟨k1, k2, k3⟩
    | planEnd t =>
      unfold nodeStep at h2
      dsimp only at h2
      split_ifs at h2
      obtain rfl := Option.some.inj h2
      exact ⟨k1, k2, k3⟩
    | timer t =>
      unfold nodeStep at h2
      dsimp only at h2
      split_ifs at h2
      obtain rfl := Option.some.inj h2
      exact ⟨k1, k2, k3⟩
    | poll t =>
      unfold nodeStep at h2
      dsimp only at h2
      rw [Option.bind_eq_some_iff] at h2
      obtain ⟨t0, -, h2⟩ := h2
      split_ifs at h2 <;> obtain rfl := Option.some.inj h2 <;> exact ⟨k1, k2, k3⟩
    | send t =>
      unfold nodeStep at h2
      dsimp only at h2
      split_ifs at h2
      obtain rfl := Option.some.inj h2
      obtain ⟨-, -, -, -, q5, q6, -⟩ := sendStep_keeps s t
      rw [q5, q6]
      refine ⟨k1, k2, ?_⟩
      obtain ⟨a1, a2⟩ := sendStep_active s t
      by_cases ha : t - s.last_wp_time ≤ 1 / 2 ∨ t - s.start_time ≤ 5
      · rw [(a1 ha).1]
        by_contra hc
        rw [Bool.not_eq_false] at hc
        obtain ⟨-, -, -, -, b5, b6, -, -, -, -, -, -, -, -, -, -, b17, -⟩ := wgStart_spec s.gen.2 (inputOf s false) t
        rcases wgRun_land s.gen.1 (wgStart s.gen.2 (inputOf s false) t) hc with hc | hc | hc
        · rw [b17, k3] at hc; cases hc
        · rw [b5] at hc; exact k1 hc
        · rw [b6] at hc
          have := hc.2
          rw [show (inputOf s false).is_land = s.goals.is_land from rfl, k2] at this
          cases this
      · rw [(a2 ha).1]; exact k3
    | _ =>
      obtain rfl := Option.some.inj h2
      exact ⟨k1, k2, k3⟩

/-- **C92, the setpoint.** Every setpoint, as long as no landing has been asked for, is, before smoothing, at most `V` metres from the newest position
received, straight towards the waypoint chosen (so that the vehicle is asked for at most `V` metres per second), and the published
position is the same if smoothing is off. -/
theorem C92_setpoint_partial (V : ℝ) (hV : 2 ≤ V) (u : Uninit) (l : Launch) (es : List NodeEvent) (s s' : NodeSt) (now : ℝ)
    (h : loopM (nodeStep Q) (nodeInit u l) es = some s) (hs : nodeStep Q s (.send now) = some s') (m : SentMsg)
    (hm : s'.sent = s.sent ++ [m]) (hu : ∀ c, u.cruise_velocity = some c → 0 ≤ c ∧ c ≤ V) (hp : PlansWithin V l es)
    (hn : NoLanding es) :
    let p := (newestPose u es).1
    (m.adapted.minus p).norm ≤ V ∧ (∃ k, 0 ≤ k ∧ m.adapted = p.plus (V3.smul k (m.goto.minus p))) ∧
    ((newestSmoothing es).1 < 1 / 100 ∨ (newestSmoothing es).2 < 1 / 100 → m.position = m.adapted.fin) := by
  have hl := (no_landing u l es s h hn).2.2
  obtain ⟨a1, a2⟩ := C91_message u l es s s' now h hs
  by_cases ha : now - newestPlan es ≤ 1 / 2 ∨ now - l.start ≤ 5
  · obtain ⟨b1, b2⟩ := a1 ha
    rw [b2] at hm
    have hm := (List.cons.inj (List.append_cancel_left hm)).1
    obtain ⟨k0, k1⟩ := C92_speed_partial V hV u l es s h hu hp
    have hf : FovsOk s.gen.2.fovs := gen_fovs_ok u l es s h (fun f t hm => by
      obtain ⟨a, b, e⟩ := List.append_of_mem hm
      exact (hp a f t b e).1)
    have hc := gen_cruise V u l es s h hu hp
    have c1 := (C38_speed_cycle V hV s.gen (newestInput u es s.goals.goal.val s.goals.is_land s.goals.is_takeoff s.goals.desired_velocity)
      now hf k0 k1 hc).2
    obtain ⟨-, -, -, d1, -, d2, -⟩ := C38_speed_step s.gen (newestInput u es s.goals.goal.val s.goals.is_land s.goals.is_takeoff
      s.goals.desired_velocity) now hl hf k0 (fun c hh => (hc c hh).1)
    rw [← hm]
    refine ⟨d1.trans c1, d2, ?_⟩
    rw [← C91_smoothing u l es s h]
    intro hsm
    obtain ⟨al, re, sc, ho⟩ := wgCycle_out s.gen (newestInput u es s.goals.goal.val s.goals.is_land s.goals.is_takeoff
      s.goals.desired_velocity) now
    dsimp only
    rw [ho]
    obtain ⟨-, -, -, -, -, -, -, -, -, -, -, -, -, -, -, -, w17, -, -, -, w21, w22, -⟩ := wgStart_spec s.gen.2 (newestInput u es
      s.goals.goal.val s.goals.is_land s.goals.is_takeoff s.goals.desired_velocity) now
    obtain ⟨m1, -⟩ := targetOf_more s.gen.1 (wgStart s.gen.2 (newestInput u es s.goals.goal.val s.goals.is_land s.goals.is_takeoff
      s.goals.desired_velocity) now)
    obtain ⟨-, -, m5, m6, -⟩ := targetOf_filter s.gen.1 (wgStart s.gen.2 (newestInput u es s.goals.goal.val s.goals.is_land
      s.goals.is_takeoff s.goals.desired_velocity) now)
    exact C39_disabled _ _ (by rw [m1, w17]; exact hl) (by rw [m5, m6, w21, w22]; exact hsm)
  · have h2 := (a2 ha).2
    rw [h2] at hm
    have := congrArg List.length hm
    simp at this

/-- **C92, the speed limits given.** If all cruise and mission speeds are between 0 and `V` (and acceleration and jerk limits positive, sensor
ranges not negative), the plans are within `V`. -/
theorem C92_within_limits (V : ℝ) (l : Launch) (es : List NodeEvent)
    (hpx : ∀ p, p = l.px4 ∨ NodeEvent.px4 p ∈ es → 0 < p.acc_hor ∧ 0 < p.jerk_max ∧ 0 ≤ p.xy_cruise ∧ p.xy_cruise ≤ V)
    (hm : ∀ v, NodeEvent.mission (.fin v) ∈ es → 0 ≤ v ∧ v ≤ V)
    (hc : ∀ c a b t, NodeEvent.config c a b t ∈ es → 0 ≤ c.max_sensor_range)
    (hf : ∀ f t, NodeEvent.planStart f t ∈ es → FovsOk (f.map (·.2)))
    (hfirst : ∀ pre f t post, es = pre ++ .planStart f t :: post → newestConfig pre ≠ none) : PlansWithin V l es := by
  intro pre f t post e
  refine ⟨hf f t (by rw [e]; simp), ?_⟩
  obtain ⟨c, hcf⟩ := Option.ne_none_iff_exists'.1 (hfirst pre f t post e)
  refine ⟨c, hcf, ?_⟩
  have mem : ∀ x ∈ pre, x ∈ es := fun x hx => by rw [e]; exact List.mem_append_left _ hx
  have h1 : newestPx4 l pre = l.px4 ∨ NodeEvent.px4 (newestPx4 l pre) ∈ pre := newest_mem _ _ _ (fun e a h => by
    cases e <;> first | (obtain rfl := Option.some.inj h; rfl) | cases h)
  have h2 : newestMission pre = .nan ∨ NodeEvent.mission (newestMission pre) ∈ pre := newest_mem _ _ _ (fun e a h => by
    cases e <;> first | (obtain rfl := Option.some.inj h; rfl) | cases h)
  have h3 : ∃ a b t, NodeEvent.config c a b t ∈ pre := by
    obtain ⟨x, hx, hy⟩ := newest_mem' _ _ _ _ hcf (by simp)
    cases x with
    | config c' a b t =>
      obtain rfl := Option.some.inj (Option.some.inj hy)
      exact ⟨a, b, t, hx⟩
    | _ => cases hy
  obtain ⟨p1, p2, p3, p4⟩ := hpx _ (h1.imp id (mem _))
  obtain ⟨a, b, t', h3⟩ := h3
  have hr := hc c a b t' (mem _ h3)
  obtain ⟨q1, q2, -, -, q5⟩ := C33_speed_limit ⟨(newestPx4 l pre).acc_hor, (newestPx4 l pre).jerk_max, (newestPx4 l pre).xy_cruise⟩
    c.max_sensor_range (newestMission pre) p1 p2 hr
  generalize hms : newestMission pre = ms at *
  cases ms with
  | fin v =>
    obtain ⟨v1, v2⟩ := hm v (h2.elim (fun h => by cases h) (mem _))
    exact ⟨le_min v1 q5, (q1 v rfl).trans v2⟩
  | nan => exact ⟨le_min p3 q5, (q2 rfl).trans p4⟩
  | inf b => exact ⟨le_min p3 q5, (q2 rfl).trans p4⟩

/-- **C92, stopping within sight.** With fixed acceleration and jerk limits and a fixed sensor range `r` in which the vehicle can stop from the
2 m/s used without a plan, the vehicle is never asked for a speed from which it could not stop within `r`, whatever cruise and mission
speeds are given. -/
theorem C92_stops_in_sight_partial (a j r : ℝ) (ha : 0 < a) (hj : 0 < j) (hr : stoppingDistance ⟨a, j, 0⟩ 2 ≤ r) (u : Uninit) (l : Launch)
    (es : List NodeEvent) (s : NodeSt) (h : loopM (nodeStep Q) (nodeInit u l) es = some s) (hu : u.cruise_velocity = none)
    (hpx : ∀ p, p = l.px4 ∨ NodeEvent.px4 p ∈ es → p.acc_hor = a ∧ p.jerk_max = j ∧ 0 ≤ p.xy_cruise)
    (hm : ∀ v, NodeEvent.mission (.fin v) ∈ es → 0 ≤ v) (hc : ∀ c b d t, NodeEvent.config c b d t ∈ es → c.max_sensor_range = r)
    (hf : ∀ f t, NodeEvent.planStart f t ∈ es → FovsOk (f.map (·.2)))
    (hfirst : ∀ pre f t post, es = pre ++ .planStart f t :: post → newestConfig pre ≠ none) :
    0 ≤ s.gen.2.speed ∧ stoppingDistance ⟨a, j, 0⟩ s.gen.2.speed ≤ r := by
  have hr0 : 0 ≤ r := le_trans (by unfold stoppingDistance; positivity) hr
  obtain ⟨-, -, -, w1, w2⟩ := C33_speed_limit ⟨a, j, 0⟩ r .nan ha hj hr0
  have mono : ∀ x y : ℝ, 0 ≤ x → 0 ≤ y → stoppingDistance ⟨a, j, 0⟩ x ≤ stoppingDistance ⟨a, j, 0⟩ y → x ≤ y := by
    intro x y hx hy hh
    by_contra hc
    push Not at hc
    unfold stoppingDistance at hh
    dsimp only at hh
    have h1 : y * (a / j) < x * (a / j) := mul_lt_mul_of_pos_right hc (by positivity)
    have h2 : y ^ 2 / (2 * a) ≤ x ^ 2 / (2 * a) := by
      apply div_le_div_of_nonneg_right _ (by positivity)
      nlinarith
    linarith
  have hV : 2 ≤ limitedSpeed ⟨a, j, 0⟩ r := mono _ _ (by norm_num) w2 (by rw [w1]; exact hr)
  have hp : PlansWithin (limitedSpeed ⟨a, j, 0⟩ r) l es := by
    intro pre f t post e
    refine ⟨hf f t (by rw [e]; simp), ?_⟩
    obtain ⟨c, hcf⟩ := Option.ne_none_iff_exists'.1 (hfirst pre f t post e)
    refine ⟨c, hcf, ?_⟩
    have mem : ∀ x ∈ pre, x ∈ es := fun x hx => by rw [e]; exact List.mem_append_left _ hx
    have h1 : newestPx4 l pre = l.px4 ∨ NodeEvent.px4 (newestPx4 l pre) ∈ pre := newest_mem _ _ _ (fun e a h => by
      cases e <;> first | (obtain rfl := Option.some.inj h; rfl) | cases h)
    have h2 : newestMission pre = .nan ∨ NodeEvent.mission (newestMission pre) ∈ pre := newest_mem _ _ _ (fun e a h => by
      cases e <;> first | (obtain rfl := Option.some.inj h; rfl) | cases h)
    have h3 : c.max_sensor_range = r := by
      obtain ⟨x, hx, hy⟩ := newest_mem' _ _ _ _ hcf (by simp)
      cases x with
      | config c' b d t =>
        obtain rfl := Option.some.inj (Option.some.inj hy)
        exact hc _ b d t (mem _ hx)
      | _ => cases hy
    obtain ⟨p1, p2, p3⟩ := hpx _ (h1.imp id (mem _))
    rw [p1, p2, h3]
    have q5 : 0 ≤ limitedSpeed ⟨a, j, (newestPx4 l pre).xy_cruise⟩ r := w2
    have e2 : limitedSpeed ⟨a, j, (newestPx4 l pre).xy_cruise⟩ r = limitedSpeed ⟨a, j, 0⟩ r := rfl
    generalize hms : newestMission pre = ms at *
    cases ms with
    | fin v =>
      have v1 := hm v (h2.elim (fun h => by cases h) (mem _))
      exact ⟨le_min v1 q5, (min_le_right _ _).trans e2.le⟩
    | nan => exact ⟨le_min p3 q5, (min_le_right _ _).trans e2.le⟩
    | inf b => exact ⟨le_min p3 q5, (min_le_right _ _).trans e2.le⟩
  obtain ⟨k0, k1⟩ := C92_speed_partial (limitedSpeed ⟨a, j, 0⟩ r) hV u l es s h (fun c hh => by rw [hu] at hh; cases hh) hp
  refine ⟨k0, ?_⟩
  rw [← w1]
  unfold stoppingDistance
  dsimp only
  have h1 := mul_le_mul_of_nonneg_right k1 (show 0 ≤ a / j by positivity)
  have h2 : s.gen.2.speed ^ 2 / (2 * a) ≤ limitedSpeed ⟨a, j, 0⟩ r ^ 2 / (2 * a) := by
    apply div_le_div_of_nonneg_right _ (by positivity)
    nlinarith
  linarith

/-! ### Finding: the first seconds -/

theorem wgCycle_time (x : PlannerState × WgState) (i : WgIn) (now : ℝ) : (wgCycle x i now).2.current_time = now := by
  obtain ⟨al, re, sc, ho⟩ := wgCycle_out x i now
  rw [ho]
  show (getPathMsg x.1 (targetOf x.1 (wgStart x.2 i now))).current_time = now
  rw [(getPathMsg_frame x.1 _).current_time]
  cases x.1
  · rfl
  · exact (altTarget_frame (wgStart x.2 i now)).2.2.2.2.2.2.2.2.2.2.2.2.1
  · rfl
  · rfl

/-- One round of the command loop in the first 5 s: a pose, the timer, the setpoint. -/
theorem early_round (s : NodeSt) (p : V3 ℝ) (q : Quat ℝ) (t : ℝ) (hc : s.cmd = none) (ht : t - s.start_time ≤ 5) :
    ∃ s1 s', loopM (nodeStep Q) s [.pose p q, .timer t] = some s1 ∧ nodeStep Q s1 (.send t) = some s' ∧ s1.sent = s.sent ∧
      s1.gen = s.gen ∧ s'.gen = wgCycle s.gen (inputOf { s with position := p, orientation := q } false) t ∧
      s'.sent = s.sent ++ [messageOf (wgCycle s.gen (inputOf { s with position := p, orientation := q } false) t).2 t] ∧
      s'.cmd = none ∧ s'.start_time = s.start_time ∧
      inputOf { s' with position := p, orientation := q } false = inputOf { s with position := p, orientation := q } false := by
  have hyes : ∀ x : NodeSt, x.cmd.isSome = true ∧ x.position_received = true → nodeStep Q x (.send t) = some (sendStep x t) := fun x hx => if_pos hx
  refine ⟨{ s with position := p, orientation := q, position_received := true, cmd := some t },
    sendStep { s with position := p, orientation := q, position_received := true, cmd := some t } t, ?_, hyes _ ⟨rfl, rfl⟩, rfl, rfl, ?_⟩
  · show (nodeStep Q { s with position := p, orientation := q, position_received := true } (.timer t)).bind (fun x => some x) = _
    rw [show nodeStep Q { s with position := p, orientation := q, position_received := true } (.timer t) =
      some { s with position := p, orientation := q, position_received := true, cmd := some t } from if_pos hc]
    rfl
  · obtain ⟨a1, -⟩ := sendStep_active { s with position := p, orientation := q, position_received := true, cmd := some t } t
    obtain ⟨b1, b2, b3⟩ := a1 (Or.inr ht)
    obtain ⟨-, q2, -, q4, q5, q6, -, -, -, -, q11, -, -, q14, -⟩ :=
      sendStep_keeps { s with position := p, orientation := q, position_received := true, cmd := some t } t
    refine ⟨b1, b2, q14, q11, ?_⟩
    unfold inputOf
    dsimp only at q2 q4 q5 q6 ⊢
    rw [q2, q4, q5, q6]

/-- **C92, finding.** Nothing initialises the cruise speed. Until the first plan the setpoints of an altitude change use whatever the memory
holds: for every `B` there is a start, without any plan, in which the third setpoint of a take-off asks for more than `B` metres
per second. -/
theorem C92_uninitialised_speed_violated (Q : PriorityQueue (Candidate ℝ) Candidate.lt) (B : ℝ) (hB : 0 ≤ B) :
    ∃ (u : Uninit) (l : Launch) (es : List NodeEvent) (s s' : NodeSt) (m : SentMsg),
      loopM (nodeStep Q) (nodeInit u l) es = some s ∧ (∀ f t, NodeEvent.planStart f t ∉ es) ∧ NoLanding es ∧
      nodeStep Q s (.send 3) = some s' ∧ s'.sent = s.sent ++ [m] ∧ B < s'.gen.2.speed ∧
      B < (m.adapted.minus (newestPose u es).1).norm := by
  let u : Uninit := { exampleUninit with cruise_velocity := some (19 / 10 * (B + 1)) }
  let l : Launch := ⟨⟨0, 0, B + 1⟩, false, 0, ⟨5, 20, 3, .fin 4⟩⟩
  let o : V3 ℝ := ⟨0, 0, 0⟩
  let q : Quat ℝ := ⟨1, 0, 0, 0⟩
  have h0 : ∃ s0, loopM (nodeStep Q) (nodeInit u l) [.state true "AUTO.TAKEOFF"] = some s0 ∧ s0.cmd = none ∧ s0.start_time = 0 ∧
      s0.gen = (.LOITER, newGenerator u) ∧ s0.nav = navStateOf "AUTO.TAKEOFF" ∧ s0.goals = goalInit u l ∧ s0.velocity = ⟨0, 0, 0⟩ :=
    ⟨_, rfl, rfl, rfl, rfl, rfl, rfl, rfl⟩
  obtain ⟨s0, r0, c0, t0, g0, n0, go0, v0⟩ := h0
  obtain ⟨s1a, s1, r1a, r1, -, -, g1, -, c1, t1, i1⟩ := early_round (Q := Q) s0 o q 1 c0 (by rw [t0]; norm_num)
  obtain ⟨s2a, s2, r2a, r2, -, -, g2, -, c2, t2, i2⟩ := early_round (Q := Q) s1 o q 2 c1 (by rw [t1, t0]; norm_num)
  obtain ⟨s3a, s3, r3a, r3, e3, g3a, g3, m3, -⟩ := early_round (Q := Q) s2 o q 3 c2 (by rw [t2, t1, t0]; norm_num)
  rw [i2, i1] at g3 m3
  rw [i1] at g2
  generalize hi : inputOf { s0 with position := o, orientation := q } false = i at g1 g2 g3 m3
  have ip : i.position = ⟨0, 0, 0⟩ := by rw [← hi]; rfl
  have ig : i.goal = ⟨0, 0, B + 1⟩ := by rw [← hi]; show s0.goals.goal.val = _; rw [go0]; rfl
  have inv : i.nav = .auto_takeoff := by rw [← hi]; show s0.nav = _; rw [n0]; decide
  have ist : i.stay = false := by rw [← hi]; rfl
  have iv : i.velocity = ⟨0, 0, 0⟩ := by rw [← hi]; exact v0
  have il : i.is_land = false := by rw [← hi]; show s0.goals.is_land = _; rw [go0]; rfl
  have hD : goalDistance .ALTITUDE_CHANGE i = B + 1 := by
    unfold goalDistance
    rw [if_neg (by rw [inv]; simp), ip, ig]
    unfold V3.norm V3.dot V3.minus
    simp only [sub_zero, mul_zero, zero_add]
    rw [← sq, Real.sqrt_sq (by linarith)]
  have alt : ∀ r, AltitudeNeeded i.position.z i.goal.z i.nav i.is_takeoff i.is_land r := fun r => Or.inr (Or.inl inv)
  have x1 : s1.gen.1 = .TRY_PATH := by
    rw [g1, C37_next_state, g0]
    dsimp only
    rw [if_neg (by rw [ist]; simp)]
  have x2 : s2.gen.1 = .ALTITUDE_CHANGE := by
    rw [g2, C37_next_state, x1]
    dsimp only
    rw [if_neg (by rw [ist]; simp), if_pos (alt _)]
  have land : ∀ (x : PlannerState × WgState) (t : ℝ), x.2.auto_land = false → (wgCycle x i t).2.auto_land = false := by
    intro x t hx
    by_contra hc
    rw [Bool.not_eq_false] at hc
    obtain ⟨-, -, -, -, b5, b6, -, -, -, -, -, -, -, -, -, -, b17, -⟩ := wgStart_spec x.2 i t
    rcases wgRun_land x.1 (wgStart x.2 i t) hc with hc | hc | hc
    · rw [b17, hx] at hc; cases hc
    · rw [b5, inv] at hc; cases hc
    · rw [b5, inv] at hc; cases hc.1
  have l1 : s1.gen.2.auto_land = false := by rw [g1]; exact land _ _ (by rw [g0]; rfl)
  have l2 : s2.gen.2.auto_land = false := by rw [g2]; exact land _ _ l1
  have pl1 : s1.gen.2.planner = ⟨[], 0, u.cruise_velocity⟩ := by rw [g1, (wgCycle_params _ _ _).1, g0]; rfl
  have pl2 : s2.gen.2.planner = ⟨[], 0, u.cruise_velocity⟩ := by rw [g2, (wgCycle_params _ _ _).1, pl1]
  have f1 : FovsOk s1.gen.2.fovs := by rw [g1, (wgCycle_params _ _ _).2.1, g0]; intro f hf; cases hf
  have f2 : FovsOk s2.gen.2.fovs := by rw [g2, (wgCycle_params _ _ _).2.1]; exact f1
  have hcv : ∀ c, u.cruise_velocity = some c → 0 ≤ c ∧ c ≤ 19 / 10 * (B + 1) + 2 := by
    intro c hc
    obtain rfl := Option.some.inj hc
    constructor <;> linarith
  obtain ⟨sp1, sp1'⟩ := C38_speed_cycle (19 / 10 * (B + 1) + 2) (by linarith) s0.gen i 1 (by rw [g0]; intro f hf; cases hf)
    (by rw [g0]; exact le_refl (0 : ℝ)) (by rw [g0]; show (0 : ℝ) ≤ _; linarith) (by rw [g0]; exact hcv)
  rw [← g1] at sp1 sp1'
  obtain ⟨sp2, -⟩ := C38_speed_cycle (19 / 10 * (B + 1) + 2) (by linarith) s1.gen i 2 f1 sp1 sp1' (by rw [pl1]; exact hcv)
  rw [← g2] at sp2
  have hspeed : s3.gen.2.speed = B + 1 := by
    rw [g3]
    have hx := (C38_speed_exact s2.gen i 3 l2).2 (by rw [x2, hD]; linarith) 1 (by rw [x2, if_pos rfl])
    rw [x2, hD, pl2] at hx
    have ct : cycleTime s2.gen.2 3 = 1 := by
      unfold cycleTime
      rw [g2, wgCycle_time, if_pos (by norm_num)]
      norm_num
    rw [ct] at hx
    rw [hx]
    apply min_eq_right
    show B + 1 ≤ 1 / (9 / 10 + 1) * (19 / 10 * (B + 1) * 1) + (1 - 1 / (9 / 10 + 1)) * s2.gen.2.speed
    norm_num
    nlinarith
  obtain ⟨-, -, -, -, st5, -⟩ := C38_speed_step s2.gen i 3 l2 f2 sp2 (by rw [pl2]; exact fun c hc => (hcv c hc).1)
  have hgoto : (wgCycle s2.gen i 3).2.out_goto.z = B + 1 := by
    have e : s2.gen = (.ALTITUDE_CHANGE, s2.gen.2) := by rw [← x2]
    rw [e]
    have hw := (C37_altitude_waypoint s2.gen.2 i 3).2 (by rw [inv]; simp)
    have := (hw.2.2 (by rw [iv]; unfold V3.normXY; simp)).1 (by
      rintro ⟨-, hn⟩
      rw [hD] at hn
      linarith)
    rw [this, ig]
  have hw : 1 / 10 < ((wgCycle s2.gen i 3).2.out_goto.minus i.position).norm := by
    have hs := V3.norm_sq ((wgCycle s2.gen i 3).2.out_goto.minus i.position)
    have hn := V3.norm_nonneg ((wgCycle s2.gen i 3).2.out_goto.minus i.position)
    unfold V3.dot at hs
    have hz : ((wgCycle s2.gen i 3).2.out_goto.minus i.position).z = B + 1 := by
      show (wgCycle s2.gen i 3).2.out_goto.z - i.position.z = B + 1
      rw [hgoto, ip]
      simp
    rw [hz] at hs
    nlinarith [sq_nonneg ((wgCycle s2.gen i 3).2.out_goto.minus i.position).x, sq_nonneg ((wgCycle s2.gen i 3).2.out_goto.minus i.position).y]
  refine ⟨u, l, [.state true "AUTO.TAKEOFF"] ++ ([.pose o q, .timer 1] ++ ([.send 1] ++ ([.pose o q, .timer 2] ++ ([.send 2] ++
    [.pose o q, .timer 3])))), s3a, s3, _, ?_, ?_, ?_, r3, by rw [e3]; exact m3, by rw [hspeed]; linarith, ?_⟩
  · rw [loopM_append', r0]
    show (loopM (nodeStep Q) s0 _) = _
    rw [loopM_append', r1a]
    show loopM (nodeStep Q) s1a ([.send 1] ++ _) = _
    rw [loopM_append', show loopM (nodeStep Q) s1a [.send 1] = (nodeStep Q s1a (.send 1)).bind some from rfl, r1]
    show (loopM (nodeStep Q) s1 _) = _
    rw [loopM_append', r2a]
    show loopM (nodeStep Q) s2a ([.send 2] ++ _) = _
    rw [loopM_append', show loopM (nodeStep Q) s2a [.send 2] = (nodeStep Q s2a (.send 2)).bind some from rfl, r2]
    exact r3a
  · intro f t hm
    simp at hm
  · constructor
    · intro a hm
      simp at hm
    · intro m hm
      simp at hm
  · show B < ((wgCycle s2.gen i 3).2.out_adapted.minus o).norm
    rw [show o = i.position from ip.symm, st5 hw, ← g3, hspeed]
    linarith

/-! ### Non-vacuity -/

/-- A history that starts with a configuration. -/
theorem config_first {c : LpConfig} {a b t : ℝ} {rest : List NodeEvent} {pre post : List NodeEvent}
    {f : List (List (V3 (Flt ℝ)) × FOV ℝ)} {t' : ℝ} (e : NodeEvent.config c a b t :: rest = pre ++ .planStart f t' :: post) :
    newestConfig pre ≠ none := by
  cases pre with
  | nil => cases (List.cons.inj e).1
  | cons x pre =>
    obtain rfl := (List.cons.inj e).1
    have : ∀ es : List NodeEvent, newestConfig (NodeEvent.config c a b t :: es) ≠ none := by
      intro es
      induction es using List.reverseRecOn with
      | nil => intro h; cases h
      | append_singleton es e ih =>
        rw [← List.cons_append, newestConfig_snoc]
        cases e with
        | config c' _ _ _ => intro h; cases h
        | _ => exact ih
    exact this pre

/-- The hypotheses of `C92_planned_speed`, `C92_speed_partial`, `C92_setpoint_partial`, `C92_within_limits` and `C92_stops_in_sight_partial` are met by the node of
`exampleNode_runs`, with a limit of 3 m/s and a sensor range of 15 m, and a setpoint is sent. -/
example (Q : PriorityQueue (Candidate ℝ) Candidate.lt) : ∃ es s s', loopM (nodeStep Q) (nodeInit exampleUninit exampleLaunch) es = some s ∧
    nodeStep Q s (.send (101 / 10)) = some s' ∧ s'.sent ≠ s.sent ∧ NodeEvent.planEnd 10 ∈ es ∧ NoLanding es ∧
    PlansWithin 3 exampleLaunch es ∧ exampleUninit.cruise_velocity = none ∧ stoppingDistance ⟨5, 20, 0⟩ 2 ≤ 15 ∧
    (∀ p, p = exampleLaunch.px4 ∨ NodeEvent.px4 p ∈ es → p.acc_hor = 5 ∧ p.jerk_max = 20 ∧ 0 ≤ p.xy_cruise) ∧
    (∀ c b d t, NodeEvent.config c b d t ∈ es → c.max_sensor_range = 15) := by
  obtain ⟨s, s1, s2, s3, h1, h2, -, h3, h4, h5, h6, -⟩ := exampleNode_runs Q
  have hfov : FovsOk (exampleFrame.map (·.2)) := by
    intro f hf
    simp only [exampleFrame, List.map_cons, List.map_nil, List.mem_singleton] at hf
    subst hf
    norm_num
  have ee : exampleNodeStart ++ NodeEvent.planStart exampleFrame 1 :: [.planEnd 10, .timer 10, .pose ⟨0, 0, 3⟩ ⟨1, 0, 0, 0⟩] =
      [.config exampleSeenConfig 10 3 20, .state true "AUTO.MISSION", .pose ⟨0, 0, 3⟩ ⟨1, 0, 0, 0⟩, .velocity ⟨1, 0, 0⟩,
        .planStart exampleFrame 1, .planEnd 10, .timer 10, .pose ⟨0, 0, 3⟩ ⟨1, 0, 0, 0⟩] := rfl
  have hcf : ∀ c b d t, NodeEvent.config c b d t ∈ exampleNodeStart ++ NodeEvent.planStart exampleFrame 1 ::
      [.planEnd 10, .timer 10, .pose ⟨0, 0, 3⟩ ⟨1, 0, 0, 0⟩] → c.max_sensor_range = 15 := by
    intro c b d t hm
    rw [ee] at hm
    simp at hm
    rw [hm.1]
    rfl
  refine ⟨exampleNodeStart ++ .planStart exampleFrame 1 :: [.planEnd 10, .timer 10, .pose ⟨0, 0, 3⟩ ⟨1, 0, 0, 0⟩], s2, s3, ?_, h4,
    by rw [h5]; exact h6, by simp, ?_, ?_, rfl, by unfold stoppingDistance; norm_num, ?_, hcf⟩
  · rw [loopM_append', h1]
    show (nodeStep Q s (.planStart exampleFrame 1)).bind _ = _
    rw [h2]
    exact h3
  · constructor
    · intro a hm
      rw [ee] at hm
      simp at hm
    · intro m hm
      rw [ee] at hm
      simp at hm
  · apply C92_within_limits
    · rintro p (rfl | hm)
      · norm_num [exampleLaunch]
      · rw [ee] at hm
        simp at hm
    · intro v hm
      rw [ee] at hm
      simp at hm
    · intro c a b t hm
      rw [hcf c a b t hm]
      norm_num
    · intro f t hm
      rw [ee] at hm
      simp at hm
      rw [hm.1]
      exact hfov
    · intro pre f t post e
      rw [ee] at e
      exact config_first e
  · rintro p (rfl | hm)
    · norm_num [exampleLaunch]
    · rw [ee] at hm
      simp at hm

end Avoidance
