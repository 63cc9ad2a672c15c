import Verif.ReachGoalProps
import Mathlib.Analysis.SpecialFunctions.Trigonometric.Basic

/-!
# Flights in a closed loop with the local planner node: the hypotheses of C112 are met
-/

namespace Avoidance
variable {Q : PriorityQueue (Candidate ℝ) Candidate.lt}

/-! ## A vehicle that answers every setpoint with a pose -/

/-- The state before a round, with the pose the vehicle has then and the loop started by the timer. -/
noncomputable def ready (pol : NodeSt → V3 ℝ × Quat ℝ) (t : ℝ) (s : NodeSt) : NodeSt :=
  { s with position := (pol s).1, orientation := (pol s).2, position_received := true, cmd := some t }

/-- The state after `i` rounds: before each the vehicle reports the pose `pol` makes of what it was told. -/
noncomputable def fly (pol : NodeSt → V3 ℝ × Quat ℝ) (t : ℕ → ℝ) (s : NodeSt) : ℕ → NodeSt
  | 0 => s
  | i + 1 => sendStep (ready pol (t i) (fly pol t s i)) (t i)

/-- The events of these rounds. -/
noncomputable def flown (pol : NodeSt → V3 ℝ × Quat ℝ) (t : ℕ → ℝ) (s : NodeSt) : ℕ → List NodeEvent
  | 0 => []
  | i + 1 => flown pol t s i ++ [.pose (pol (fly pol t s i)).1 (pol (fly pol t s i)).2, .timer (t i), .send (t i)]

section
variable (pol : NodeSt → V3 ℝ × Quat ℝ) (t : ℕ → ℝ) (s : NodeSt)

theorem ready_run (hc : s.cmd = none) (t : ℝ) : loopM (nodeStep Q) s [.pose (pol s).1 (pol s).2, .timer t] = some (ready pol t s) := by
  show (nodeStep Q { s with position := (pol s).1, orientation := (pol s).2, position_received := true } (.timer t)).bind (fun x => some x) = _
  rw [show nodeStep Q { s with position := (pol s).1, orientation := (pol s).2, position_received := true } (.timer t) =
    some { s with position := (pol s).1, orientation := (pol s).2, position_received := true, cmd := some t } from if_pos hc]
  rfl

theorem ready_send (t : ℝ) : nodeStep Q (ready pol t s) (.send t) = some (sendStep (ready pol t s) t) := by
  have hyes : ∀ x : NodeSt, x.cmd.isSome = true ∧ x.position_received = true → nodeStep Q x (.send t) = some (sendStep x t) := fun x hx => if_pos hx
  exact hyes _ ⟨rfl, rfl⟩

theorem fly_keeps (hc : s.cmd = none) : ∀ i, (fly pol t s i).cmd = none ∧ (fly pol t s i).start_time = s.start_time ∧ (fly pol t s i).goals = s.goals ∧
    (fly pol t s i).nav = s.nav ∧ (fly pol t s i).planner = s.planner := by
  intro i
  induction i with
  | zero => exact ⟨hc, rfl, rfl, rfl, rfl⟩
  | succ i ih =>
    obtain ⟨k1, k2, k3, k4, k5⟩ := ih
    obtain ⟨-, -, -, -, q5, q6, -, -, q9, -, q11, -, -, q14, -⟩ := sendStep_keeps (ready pol (t i) (fly pol t s i)) (t i)
    exact ⟨q14, q11.trans k2, q6.trans k3, q5.trans k4, q9.trans k5⟩

theorem fly_run (hc : s.cmd = none) : ∀ i, loopM (nodeStep Q) s (flown pol t s i) = some (fly pol t s i) := by
  intro i
  induction i with
  | zero => rfl
  | succ i ih =>
    show loopM (nodeStep Q) s (flown pol t s i ++ ([.pose (pol (fly pol t s i)).1 (pol (fly pol t s i)).2, .timer (t i)] ++ [.send (t i)])) = _
    rw [loopM_append', ih]
    show loopM (nodeStep Q) (fly pol t s i) _ = _
    rw [loopM_append', ready_run pol _ (fly_keeps pol t s hc i).1]
    show loopM (nodeStep Q) (ready pol (t i) (fly pol t s i)) [.send (t i)] = _
    rw [loopM_one, ready_send]
    rfl

theorem fly_sends (hc : s.cmd = none) (i : ℕ) (ht : t i - s.start_time ≤ 5) :
    (fly pol t s (i + 1)).gen = wgCycle (fly pol t s i).gen (inputOf (ready pol (t i) (fly pol t s i)) false) (t i) ∧
    (fly pol t s (i + 1)).sent = (fly pol t s i).sent ++ [messageOf (wgCycle (fly pol t s i).gen (inputOf (ready pol (t i) (fly pol t s i)) false) (t i)).2 (t i)] := by
  obtain ⟨a1, -⟩ := sendStep_active (ready pol (t i) (fly pol t s i)) (t i)
  obtain ⟨b1, b2, -⟩ := a1 (Or.inr (by
    show t i - (fly pol t s i).start_time ≤ 5
    rw [(fly_keeps pol t s hc i).2.1]; exact ht))
  exact ⟨b1, b2⟩

theorem cycle_fovs (x : PlannerState × WgState) (i : WgIn) (now : ℝ) : (wgCycle x i now).2.fovs = x.2.fovs := by
  obtain ⟨al, re, sc, ho⟩ := wgCycle_out x i now
  obtain ⟨-, -, m3, -⟩ := targetOf_more x.1 (wgStart x.2 i now)
  obtain ⟨-, -, -, -, -, -, -, -, -, -, -, -, -, -, -, -, -, -, -, -, -, -, a23, -⟩ := wgStart_spec x.2 i now
  rw [ho]
  dsimp only
  rw [(getPathMsg_frame x.1 _).fovs, m3, a23]

theorem fly_fovs : ∀ i, (fly pol t s i).gen.2.fovs = s.gen.2.fovs := by
  intro i
  induction i with
  | zero => rfl
  | succ i ih =>
    obtain ⟨a1, a2⟩ := sendStep_active (ready pol (t i) (fly pol t s i)) (t i)
    show (sendStep (ready pol (t i) (fly pol t s i)) (t i)).gen.2.fovs = _
    by_cases ha : t i - (ready pol (t i) (fly pol t s i)).last_wp_time ≤ 1 / 2 ∨ t i - (ready pol (t i) (fly pol t s i)).start_time ≤ 5
    · rw [(a1 ha).1, cycle_fovs]; exact ih
    · rw [(a2 ha).1]; exact ih

theorem flown_events : ∀ i, ∀ e ∈ flown pol t s i, (∃ p q, e = .pose p q) ∨ (∃ x, e = .timer x) ∨ ∃ x, e = .send x := by
  intro i
  induction i with
  | zero => intro e he; cases he
  | succ i ih =>
    intro e he
    rcases List.mem_append.mp he with he | he
    · exact ih e he
    · simp at he
      rcases he with rfl | rfl | rfl
      · exact Or.inl ⟨_, _, rfl⟩
      · exact Or.inr (Or.inl ⟨_, rfl⟩)
      · exact Or.inr (Or.inr ⟨_, rfl⟩)

/-- The events before round `i`, counted from the third on. -/
noncomputable def flownTo (i : ℕ) : List NodeEvent :=
  flown pol t s (i + 2) ++ [.pose (pol (fly pol t s (i + 2))).1 (pol (fly pol t s (i + 2))).2, .timer (t (i + 2))]

noncomputable def flownMsg (i : ℕ) : SentMsg :=
  messageOf (wgCycle (fly pol t s (i + 2)).gen (inputOf (ready pol (t (i + 2)) (fly pol t s (i + 2))) false) (t (i + 2))).2 (t (i + 2))

theorem fly_rounds (hc : s.cmd = none) (n : ℕ) (ht : ∀ i ≤ n, t (i + 2) - s.start_time ≤ 5) :
    Rounds Q s n (flownTo pol t s) (fun i => ready pol (t (i + 2)) (fly pol t s (i + 2))) (fun i => fly pol t s (i + 3)) (fun i => t (i + 2)) (flownMsg pol t s) where
  upTo := fun i _ => by
    unfold flownTo
    rw [loopM_append', fly_run pol t s hc]
    exact ready_run pol _ (fly_keeps pol t s hc _).1 _
  round := fun i _ => ready_send pol _ _
  sends := fun i hi => (fly_sends pol t s hc (i + 2) (ht i hi)).2
  next := fun i _ => ⟨[.pose (pol (fly pol t s (i + 3))).1 (pol (fly pol t s (i + 3))).2, .timer (t (i + 3))], by
    unfold flownTo
    show (flown pol t s (i + 2) ++ [.pose (pol (fly pol t s (i + 2))).1 (pol (fly pol t s (i + 2))).2, .timer (t (i + 2)), .send (t (i + 2))]) ++
      [.pose (pol (fly pol t s (i + 3))).1 (pol (fly pol t s (i + 3))).2, .timer (t (i + 3))] = _
    simp⟩
  only := fun i _ => rfl

theorem flownTo_events (i : ℕ) : ∀ e ∈ flownTo pol t s i, (∃ p q, e = .pose p q) ∨ (∃ x, e = .timer x) ∨ ∃ x, e = .send x := by
  intro e he
  rcases List.mem_append.mp he with he | he
  · exact flown_events pol t s _ e he
  · simp at he
    rcases he with rfl | rfl
    · exact Or.inl ⟨_, _, rfl⟩
    · exact Or.inr (Or.inl ⟨_, rfl⟩)

theorem flownTo_pose (u : Uninit) (es : List NodeEvent) (i : ℕ) : newestPose u (es ++ flownTo pol t s i) = pol (fly pol t s (i + 2)) := by
  unfold flownTo
  rw [show es ++ (flown pol t s (i + 2) ++ [NodeEvent.pose (pol (fly pol t s (i + 2))).1 (pol (fly pol t s (i + 2))).2, .timer (t (i + 2))]) =
    ((es ++ flown pol t s (i + 2)) ++ [.pose (pol (fly pol t s (i + 2))).1 (pol (fly pol t s (i + 2))).2]) ++ [.timer (t (i + 2))] by simp, newestPose_snoc, newestPose_snoc]

end

/-! ## The start: configured without smoothing, in a mission, one plan with a clear view -/

noncomputable def launchTo (g : V3 ℝ) : Launch := ⟨g, false, 0, ⟨5, 20, 3, .fin 4⟩⟩

noncomputable def startEvents : List NodeEvent :=
  [.config (exampleTree 1) 0 0 20, .state true "AUTO.MISSION", .pose ⟨0, 0, 3⟩ ⟨1, 0, 0, 0⟩, .velocity ⟨1, 0, 0⟩]

noncomputable def plannedEvents : List NodeEvent := startEvents ++ [.planStart exampleClear 0, .planEnd 0]

theorem planned_start (Q : PriorityQueue (Candidate ℝ) Candidate.lt) (g : V3 ℝ) (hg : 15 ≤ (g.minus ⟨0, 0, 3⟩).norm) :
    ∃ s0, loopM (nodeStep Q) (nodeInit exampleUninit (launchTo g)) plannedEvents = some s0 ∧ s0.planning = false ∧ s0.cmd = none ∧ s0.start_time = 0 ∧
      s0.goals.goal.val = g ∧ s0.goals.is_land = false ∧ s0.goals.is_takeoff = false ∧ s0.nav = .mission ∧ s0.planner.cloud = [] ∧ s0.planner.star.path = [] ∧
      s0.sent = [] ∧ s0.gen.2.fovs = [⟨0, 0, 60, 45⟩] ∧ s0.gen.2.speed = 0 ∧ s0.gen.1 = .LOITER ∧ s0.gen.2.auto_land = false ∧ s0.gen.2.planner.path = [] ∧ s0.gen.2.hover_position = none := by
  have h : ∃ a, loopM (nodeStep Q) (nodeInit exampleUninit (launchTo g)) startEvents = some a ∧ a.planning = false ∧ a.cmd = none ∧ a.start_time = 0 ∧
      a.goals = goalInit exampleUninit (launchTo g) ∧ a.nav = .mission ∧ a.sent = [] ∧ a.gen.2.fovs = [] ∧ a.gen.2.speed = 0 ∧ a.gen.1 = .LOITER ∧ a.gen.2.auto_land = false ∧
      a.gen.2.hover_position = none :=
    ⟨_, rfl, rfl, rfl, rfl, rfl, rfl, rfl, rfl, rfl, rfl, rfl, rfl⟩
  obtain ⟨a, h0, f1, f2, f3, f4, f5, f6, f7, f8, f9, f10, f11⟩ := h
  have hcl0 : a.planner.cloud = [] ∧ a.planner.star.path = [] := by
    have k := (nodeKnows _ _ _ a h0).calls
    have hn : ∀ e ∈ a.calls, ∀ t, e ≠ .run t := by
      intro e he t h
      obtain ⟨f, hf⟩ := runs_are_plans _ _ _ a h0 t (by rw [← h]; exact he)
      simp [startEvents] at hf
    obtain ⟨k1, k2, -⟩ := setters_keep k hn
    rw [k1, k2]
    exact ⟨rfl, rfl⟩
  have hpg : plannedGoal a = g := by
    unfold plannedGoal
    rw [f4]
    rfl
  have hpose : (newestPose exampleUninit startEvents).1 = ⟨0, 0, 3⟩ := rfl
  obtain ⟨b, h1⟩ := C93_plan_defined _ _ _ a exampleClear 0 h0 f1 (by simp [exampleClear]) (exampleTree 1) rfl (by norm_num [exampleTree, exampleSeenConfig])
    (by norm_num [exampleTree, exampleSeenConfig]) (by norm_num [exampleTree, exampleSeenConfig]) (by norm_num [exampleTree, exampleSeenConfig])
    (by norm_num [exampleTree, exampleSeenConfig]) (by
      rw [hpg, hpose]; intro e; rw [e] at hg
      have : ((⟨0, 0, 3⟩ : V3 ℝ).minus ⟨0, 0, 3⟩).norm = 0 := by unfold V3.minus V3.norm V3.dot; simp
      rw [this] at hg; norm_num at hg)
    (by rw [hpg, hpose]; exact hg)
  obtain ⟨m1, m2, -⟩ := clear_plan h0 h1 (exampleTree 1) rfl (by norm_num [exampleTree, exampleSeenConfig]) (exampleClear_clear _ _)
  have hcl : b.planner.cloud = [] := by
    rw [List.eq_nil_iff_forall_not_mem]
    intro o ho
    obtain ⟨o', ho', -⟩ := m1 o ho
    rw [hcl0.1] at ho'
    cases ho'
  have hpath := (m2 hcl).1.trans hcl0.2
  obtain ⟨x, hx, hr, hpl, hxg, hcalls⟩ := plan_calls h0 h1
  have hb : b.goals = { a.goals with new_goal := false } ∧ b.cmd = a.cmd ∧ b.gen.1 = a.gen.1 ∧ b.gen.2.auto_land = a.gen.2.auto_land ∧ b.nav = a.nav ∧ b.sent = a.sent ∧
      b.gen.2.speed = a.gen.2.speed ∧ b.start_time = a.start_time ∧ b.gen.2.fovs = exampleClear.zipIdx.foldl (fun l x => wgSetFOV l x.2 x.1.2) a.gen.2.fovs ∧ b.gen.2.hover_position = a.gen.2.hover_position := by
    unfold nodeStep at h1
    dsimp only at h1
    split_ifs at h1
    rw [Option.map_eq_some_iff] at h1
    obtain ⟨pl, -, rfl⟩ := h1
    exact ⟨rfl, rfl, rfl, rfl, rfl, rfl, rfl, rfl, rfl, rfl⟩
  obtain ⟨e1, e2, e3, e4, e5, e6, e7, e8, e9, e10⟩ := hb
  have h2 : nodeStep Q b (.planEnd 0) = some { b with planning := false, last_wp_time := 0, gen := (b.gen.1, { b.gen.2 with planner := infoOf b.planner }) } :=
    if_pos ⟨hpl, by rw [e2]; exact f2⟩
  refine ⟨{ b with planning := false, last_wp_time := 0, gen := (b.gen.1, { b.gen.2 with planner := infoOf b.planner }) }, ?_, rfl, e2.trans f2, e8.trans f3, ?_, ?_, ?_, e5.trans f5, hcl, hpath, e6.trans f6, ?_,
    e7.trans f8, e3.trans f9, e4.trans f10, hpath, e10.trans f11⟩
  · unfold plannedEvents
    rw [loopM_append', h0]
    show (nodeStep Q a (.planStart exampleClear 0)).bind _ = _
    rw [h1]
    show (nodeStep Q b (.planEnd 0)).bind _ = _
    rw [h2]
    rfl
  · show b.goals.goal.val = g
    rw [e1, f4]
    rfl
  · show b.goals.is_land = false
    rw [e1, f4]
    rfl
  · show b.goals.is_takeoff = false
    rw [e1, f4]
    rfl
  · show b.gen.2.fovs = _
    rw [e9, f7]
    rfl

/-- The plan is the only one. -/
theorem only_plan {rest pre post : List NodeEvent} {f : List (List (V3 (Flt ℝ)) × FOV ℝ)} {t : ℝ}
    (hr : ∀ e ∈ rest, (∃ p q, e = .pose p q) ∨ (∃ x, e = .timer x) ∨ ∃ x, e = NodeEvent.send x)
    (e : plannedEvents ++ rest = pre ++ .planStart f t :: post) : pre = startEvents ∧ f = exampleClear := by
  have e : startEvents ++ (.planStart exampleClear 0 :: .planEnd 0 :: rest) = pre ++ .planStart f t :: post := by
    rw [← e]; unfold plannedEvents; simp
  rcases List.append_eq_append_iff.mp e with ⟨x, h1, h2⟩ | ⟨x, h1, h2⟩
  · cases x with
    | nil =>
      rw [List.append_nil] at h1
      have h2 := (List.cons.inj h2).1
      injection h2 with h2 h3
      exact ⟨h1, h2.symm⟩
    | cons y x =>
      have h2 := (List.cons.inj h2).2
      have hm : NodeEvent.planStart f t ∈ NodeEvent.planEnd 0 :: rest := by rw [h2]; simp
      rcases List.mem_cons.mp hm with hm | hm
      · cases hm
      · rcases hr _ hm with ⟨p, q, h⟩ | ⟨x, h⟩ | ⟨x, h⟩ <;> cases h
  · cases x with
    | nil =>
      rw [List.append_nil] at h1
      rw [List.nil_append] at h2
      have h2 := (List.cons.inj h2).1
      injection h2 with h2 h3
      exact ⟨h1.symm, h2⟩
    | cons y x =>
      have hy := (List.cons.inj h2).1
      have hm : y ∈ startEvents := by rw [h1]; simp
      rw [← hy] at hm
      simp [startEvents] at hm

theorem planned_within (g : V3 ℝ) (rest : List NodeEvent) (hr : ∀ e ∈ rest, (∃ p q, e = .pose p q) ∨ (∃ x, e = .timer x) ∨ ∃ x, e = NodeEvent.send x) :
    PlansWithin 3 (launchTo g) (plannedEvents ++ rest) ∧ PlansFrom 2 (launchTo g) (plannedEvents ++ rest) := by
  have hlim : 2 ≤ cruiseVelocity ⟨5, 20, 3⟩ 15 .nan := by
    unfold cruiseVelocity limitedSpeed
    refine le_min (by norm_num) ?_
    dsimp only
    rw [le_div_iff₀ (by norm_num)]
    have : (13 / 2 : ℝ) ≤ Real.sqrt (2 * 5 * (5 / 20) * (2 * 5 * (5 / 20)) - 4 * 1 * (2 * -5 * 15)) := Real.le_sqrt_of_sq_le (by norm_num)
    linarith
  have hlim3 : cruiseVelocity ⟨5, 20, 3⟩ 15 .nan ≤ 3 := by unfold cruiseVelocity; exact min_le_left _ _
  constructor
  · intro pre f t post e
    obtain ⟨rfl, rfl⟩ := only_plan hr e
    refine ⟨?_, exampleTree 1, rfl, ?_, ?_⟩
    · intro x hx
      simp only [exampleClear, List.map_cons, List.map_nil, List.mem_singleton] at hx
      subst hx
      norm_num
    · exact le_trans (by norm_num) hlim
    · exact hlim3
  · intro pre f t post e cf hcf
    obtain ⟨rfl, rfl⟩ := only_plan hr e
    have hcf : some (exampleTree 1) = some cf := hcf
    obtain rfl := Option.some.inj hcf
    exact hlim

theorem planned_clear (rest : List NodeEvent) (hr : ∀ e ∈ rest, (∃ p q, e = .pose p q) ∨ (∃ x, e = .timer x) ∨ ∃ x, e = NodeEvent.send x) :
    ClearPlans exampleUninit plannedEvents rest := by
  intro pre f t post e
  rcases hr (.planStart f t) (by rw [e]; simp) with ⟨p, q, h⟩ | ⟨x, h⟩ | ⟨x, h⟩ <;> cases h

theorem planned_free (s0 : NodeSt) (h1 : s0.goals.is_land = false) (h2 : s0.goals.is_takeoff = false) (h3 : s0.nav = .mission) (h4 : s0.planner.star.path = [])
    (rest : List NodeEvent) (hr : ∀ e ∈ rest, (∃ p q, e = .pose p q) ∨ (∃ x, e = .timer x) ∨ ∃ x, e = NodeEvent.send x) : SendsFree Q s0 rest := by
  intro pre t post sp e hsp
  refine ⟨?_, Or.inl (by show s0.planner.star.path.length < 2; rw [h4]; simp)⟩
  refine calm_run pre s0 sp hsp (fun x hx => ?_) ?_ h2 h1 h3
  · rcases hr x (by rw [e]; exact List.mem_append_left _ hx) with h | h | h
    · exact Or.inr (Or.inr (Or.inl h))
    · exact Or.inr (Or.inr (Or.inr (Or.inl h)))
    · exact Or.inr (Or.inr (Or.inr (Or.inr h)))
  · unfold NoClimb AltitudeNeeded
    rw [h1, h2, h3]
    simp

theorem flownTo_send (pol : NodeSt → V3 ℝ × Quat ℝ) (t : ℕ → ℝ) (s : NodeSt) (i : ℕ) (x : ℝ) :
    ∀ e ∈ flownTo pol t s i ++ [.send x], (∃ p q, e = .pose p q) ∨ (∃ x, e = .timer x) ∨ ∃ x, e = NodeEvent.send x := by
  intro e he
  rcases List.mem_append.mp he with he | he
  · exact flownTo_events pol t s i e he
  · rw [List.mem_singleton] at he
    exact Or.inr (Or.inr ⟨_, he⟩)

theorem planned_smoothing (rest : List NodeEvent) (hr : ∀ e ∈ rest, (∃ p q, e = .pose p q) ∨ (∃ x, e = .timer x) ∨ ∃ x, e = NodeEvent.send x) :
    newestSmoothing (plannedEvents ++ rest) = (0, 0) := by
  induction rest using List.reverseRecOn with
  | nil => rfl
  | append_singleton rest e ih =>
    rw [← List.append_assoc, newestSmoothing_snoc]
    have := ih (fun x hx => hr x (List.mem_append_left _ hx))
    rcases hr e (by simp) with ⟨p, q, rfl⟩ | ⟨x, rfl⟩ | ⟨x, rfl⟩ <;> exact this

/-! ## A vehicle that flies to each setpoint -/

/-- Level, with the given yaw. -/
noncomputable def headed (y : ℝ) : Quat ℝ := ⟨Real.cos (y / 2), 0, 0, Real.sin (y / 2)⟩

theorem headed_yaw (y : ℝ) : ∃ k : ℤ, getYawFromQuaternion (headed y) * (Real.pi / 180) = y + 2 * Real.pi * k := by
  have hp := Real.pi_pos
  have e : getYawFromQuaternion (headed y) * (Real.pi / 180) = Complex.arg (Complex.cos y + Complex.sin y * Complex.I) := by
    unfold getYawFromQuaternion headed atan2 radToDeg
    dsimp only
    have h1 : 2 * (Real.cos (y / 2) * Real.sin (y / 2) + 0 * 0) = Real.sin y := by
      have := Real.sin_two_mul (y / 2)
      rw [show 2 * (y / 2) = y by ring] at this
      linarith
    have h2 : 1 - 2 * (0 * 0 + Real.sin (y / 2) * Real.sin (y / 2)) = Real.cos y := by
      have := Real.cos_two_mul (y / 2)
      rw [show 2 * (y / 2) = y by ring] at this
      have h3 := Real.sin_sq_add_cos_sq (y / 2)
      nlinarith
    rw [h1, h2, show (⟨Real.cos y, Real.sin y⟩ : ℂ) = Complex.cos y + Complex.sin y * Complex.I by
      apply Complex.ext <;> simp [Complex.cos_ofReal_re, Complex.sin_ofReal_re, ← Complex.ofReal_cos, ← Complex.ofReal_sin]]
    field_simp
  rw [e]
  have h := Complex.arg_cos_add_sin_mul_I_coe_angle (y : Real.Angle)
  rw [Real.Angle.cos_coe, Real.Angle.sin_coe, Complex.ofReal_cos, Complex.ofReal_sin, Real.Angle.angle_eq_iff_two_pi_dvd_sub] at h
  obtain ⟨k, hk⟩ := h
  exact ⟨k, by linarith⟩

theorem headed_pitch (y : ℝ) : getPitchFromQuaternion (headed y) = 0 := by
  unfold getPitchFromQuaternion headed
  norm_num

/-- The vehicle flies exactly to the setpoint and turns to the yaw it was told, after the third message. -/
noncomputable def obeys (s : NodeSt) : V3 ℝ × Quat ℝ :=
  match s.sent.getLast? with
  | some m => if 3 ≤ s.sent.length then (m.adapted, headed m.yaw) else (⟨0, 0, 3⟩, headed 0)
  | none => (⟨0, 0, 3⟩, headed 0)

theorem obeys_pitch (s : NodeSt) : getPitchFromQuaternion (obeys s).2 = 0 := by
  unfold obeys
  split
  · split_ifs <;> exact headed_pitch _
  · exact headed_pitch _

theorem obeys_early {s : NodeSt} (h : s.sent.length < 3) : obeys s = (⟨0, 0, 3⟩, headed 0) := by
  unfold obeys
  split
  · rw [if_neg (by omega)]
  · rfl

theorem obeys_last {s : NodeSt} {m : SentMsg} (h : s.sent.getLast? = some m) (h3 : 3 ≤ s.sent.length) : obeys s = (m.adapted, headed m.yaw) := by
  unfold obeys
  rw [h]
  dsimp only
  rw [if_pos h3]

/-- The hypotheses of `C112_reaches_goal_partial` are met, for every number `n` of rounds: the goal is 20 m to the east, a camera looks forward, and the vehicle flies to each
setpoint. The setpoints are `4 / (n + 2)` seconds apart. -/
example (Q : PriorityQueue (Candidate ℝ) Candidate.lt) (n : ℕ) : ∃ s0 pre A S t m, loopM (nodeStep Q) (nodeInit exampleUninit (launchTo ⟨20, 0, 3⟩)) plannedEvents = some s0 ∧
    Rounds Q s0 n pre A S t m ∧ FliesAsTold exampleUninit plannedEvents n pre m 1 ∧
    let d := fun i => ((⟨20, 0, 3⟩ : V3 ℝ).minus (newestPose exampleUninit (plannedEvents ++ pre i)).1).norm
    d 0 = 20 ∧ ∀ i, 0 < i → i < n → d (i + 1) ≤ d i - advance (4 / ((n : ℝ) + 2) / (9 / 10 + 4 / ((n : ℝ) + 2))) 2 (d i) := by
  have n20 : ((⟨20, 0, 3⟩ : V3 ℝ).minus ⟨0, 0, 3⟩).norm = 20 := by
    unfold V3.norm V3.dot V3.minus
    norm_num
    rw [show (400 : ℝ) = 20 ^ 2 by norm_num, Real.sqrt_sq (by norm_num)]
  obtain ⟨s0, h0, hidle, hcmd, hstart, hgoal, hland, htake, hnav, hcloud, hpath, hsent, hfov, hspeed, hmode, hal, -, -⟩ := planned_start Q ⟨20, 0, 3⟩ (by rw [n20]; norm_num)
  have hn : (0 : ℝ) < (n : ℝ) + 2 := by positivity
  set tau := 4 / ((n : ℝ) + 2) with htau
  have htau0 : 0 < tau := by positivity
  let t : ℕ → ℝ := fun i => i * tau
  have ht : ∀ i ≤ n, t (i + 2) - s0.start_time ≤ 5 := by
    intro i hi
    rw [hstart]
    show ((i + 2 : ℕ) : ℝ) * tau - 0 ≤ 5
    have h1 : ((i + 2 : ℕ) : ℝ) ≤ (n : ℝ) + 2 := by exact_mod_cast Nat.add_le_add_right hi 2
    have h2 : ((i + 2 : ℕ) : ℝ) * tau ≤ ((n : ℝ) + 2) * tau := mul_le_mul_of_nonneg_right h1 htau0.le
    have h3 : ((n : ℝ) + 2) * tau = 4 := by rw [htau]; field_simp
    linarith
  have ht' : ∀ i < 2, t i - s0.start_time ≤ 5 := by
    intro i hi
    have := ht 0 (Nat.zero_le _)
    rw [hstart] at this ⊢
    have this : ((0 + 2 : ℕ) : ℝ) * tau - 0 ≤ 5 := this
    show (i : ℝ) * tau - 0 ≤ 5
    have h1 : (i : ℝ) ≤ ((0 + 2 : ℕ) : ℝ) := by exact_mod_cast hi.le
    have := mul_le_mul_of_nonneg_right h1 htau0.le
    linarith
  have r := fly_rounds (Q := Q) obeys t s0 hcmd n ht
  have hlen2 : (fly obeys t s0 2).sent.length = 2 := by
    rw [(fly_sends obeys t s0 hcmd 1 (ht' 1 (by norm_num))).2, (fly_sends obeys t s0 hcmd 0 (ht' 0 (by norm_num))).2, List.length_append, List.length_append]
    show s0.sent.length + 1 + 1 = 2
    rw [hsent]; rfl
  have hlen : ∀ i ≤ n + 1, (fly obeys t s0 (i + 2)).sent.length = i + 2 := by
    intro i
    induction i with
    | zero => intro _; exact hlen2
    | succ i ih =>
      intro hi
      have := ih (by omega)
      show (fly obeys t s0 (i + 2 + 1)).sent.length = _
      rw [(fly_sends obeys t s0 hcmd (i + 2) (ht i (by omega))).2, List.length_append, this]
      rfl
  have hpose0 : obeys (fly obeys t s0 2) = (⟨0, 0, 3⟩, headed 0) := obeys_early (by rw [hlen2]; norm_num)
  have hpose : ∀ i < n, obeys (fly obeys t s0 (i + 1 + 2)) = ((flownMsg obeys t s0 i).adapted, headed (flownMsg obeys t s0 i).yaw) := by
    intro i hi
    have h1 := (fly_sends obeys t s0 hcmd (i + 2) (ht i (by omega))).2
    have h2 : (fly obeys t s0 (i + 1 + 2)).sent.getLast? = some (flownMsg obeys t s0 i) := by
      show (fly obeys t s0 (i + 2 + 1)).sent.getLast? = _
      rw [h1, List.getLast?_concat]
      rfl
    exact obeys_last h2 (by rw [hlen (i + 1) (by omega)]; omega)
  have hgoals : ∀ i, (ready obeys (t (i + 2)) (fly obeys t s0 (i + 2))).goals.goal.val = ⟨20, 0, 3⟩ := fun i => by
    show (fly obeys t s0 (i + 2)).goals.goal.val = _
    rw [(fly_keeps obeys t s0 hcmd (i + 2)).2.2.1, hgoal]
  have hth : ∀ i ≤ n, s0.sent.length + 2 ≤ (ready obeys (t (i + 2)) (fly obeys t s0 (i + 2))).sent.length := fun i hi => by
    show s0.sent.length + 2 ≤ (fly obeys t s0 (i + 2)).sent.length
    rw [hlen i (by omega), hsent]
    show 0 + 2 ≤ i + 2
    omega
  have told : FliesAsTold exampleUninit plannedEvents n (flownTo obeys t s0) (flownMsg obeys t s0) 1 := by
    constructor
    · intro i hi
      obtain ⟨-, -, -, hp⟩ := C110_straight_to_goal_partial _ _ _ s0 h0 hidle hcloud _ _ _ _ (r.upTo i hi.le) (r.round i hi.le) _ (r.sends i hi.le)
        (planned_clear _ (flownTo_events obeys t s0 i)) (planned_free s0 hland htake hnav hpath _ (flownTo_send obeys t s0 i _)) (hth i hi.le)
      refine ⟨1, (flownMsg obeys t s0 i).adapted, le_rfl, le_rfl, hp (Or.inl ?_), ?_⟩
      · rw [planned_smoothing _ (flownTo_events obeys t s0 i)]; norm_num
      · rw [flownTo_pose, flownTo_pose, hpose i hi]
        unfold V3.plus V3.smul V3.minus
        cases (flownMsg obeys t s0 i).adapted
        simp
    · intro i hi
      rw [flownTo_pose, hpose i hi]
      exact headed_yaw _
  obtain ⟨w1, w2⟩ := planned_within ⟨20, 0, 3⟩ (flownTo obeys t s0 n) (flownTo_events obeys t s0 n)
  have hd0 : (newestPose exampleUninit (plannedEvents ++ flownTo obeys t s0 0)).1 = ⟨0, 0, 3⟩ := by rw [flownTo_pose, hpose0]
  obtain ⟨-, main, -⟩ := C112_reaches_goal_partial exampleUninit (launchTo ⟨20, 0, 3⟩) plannedEvents s0 h0 hidle hcloud n _ _ _ _ _ r (hth 0 (Nat.zero_le _))
    (planned_clear _ (flownTo_events obeys t s0 n)) (planned_free s0 hland htake hnav hpath _ (flownTo_send obeys t s0 n _)) 3 2 1 tau 1 (by norm_num) (by norm_num) (by norm_num)
    (by norm_num) htau0 (by norm_num) (fun x hx => by cases hx) w1 w2 ⟨20, 0, 3⟩ (fun i _ => hgoals i)
    (fun i _ => by rw [planned_smoothing _ (flownTo_events obeys t s0 i)]; norm_num)
    (fun i _ => by
      show tau ≤ ((i + 1 + 2 : ℕ) : ℝ) * tau - ((i + 2 : ℕ) : ℝ) * tau
      push_cast
      linarith)
    (fun i _ e ρ => by
      show 1 ≤ (scaleToFOV (fly obeys t s0 (i + 2)).gen.2.fovs ⟨e, 0, ρ⟩).getD 0
      rw [fly_fovs, hfov, forward_camera 60 45 0 (by norm_num) (by norm_num)])
    (fun i _ => by
      rw [flownTo_pose, obeys_pitch, sub_zero]
      obtain ⟨⟨p1, p2⟩, -⟩ := C03_wrapPolar_range ⟨-(cartesianToPolarHistogram (flownMsg obeys t s0 i).goto (obeys (fly obeys t s0 (i + 2))).1).e,
        -(cartesianToPolarHistogram (flownMsg obeys t s0 i).goto (obeys (fly obeys t s0 (i + 2))).1).z + 90,
        (cartesianToPolarHistogram (flownMsg obeys t s0 i).goto (obeys (fly obeys t s0 (i + 2))).1).r⟩
      exact abs_le.mpr ⟨p1, p2⟩)
    told (Or.inl (by
      rw [hd0, n20]
      unfold V3.normXY V3.minus
      norm_num
      rw [show (400 : ℝ) = 20 ^ 2 by norm_num, Real.sqrt_sq (by norm_num)]
      norm_num))
  refine ⟨s0, _, _, _, _, _, h0, r, told, ?_⟩
  dsimp only
  refine ⟨by rw [hd0, n20], fun i hi0 hi => ?_⟩
  have := main i hi0 hi
  rw [one_mul, mul_one] at this
  exact this

/-! ## A goal straight above -/

/-- **C112, finding: a witness.** The goal is 20 m straight above the vehicle, which looks east with a camera of 60 degrees; the node is in a mission and has planned with a clear view. It sends
setpoints, as many as one likes, all of them the position and the yaw of the vehicle. -/
theorem C112_steep_goal_witness (Q : PriorityQueue (Candidate ℝ) Candidate.lt) (n : ℕ) : ∃ s0 pre A S t m,
    (∀ i, t (i + 1) - t i = 4 / ((n : ℝ) + 2)) ∧ loopM (nodeStep Q) (nodeInit exampleUninit (launchTo ⟨0, 0, 23⟩)) plannedEvents = some s0 ∧ Rounds Q s0 n pre A S t m ∧ s0.goals.goal.val = ⟨0, 0, 23⟩ ∧
    s0.nav = .mission ∧ s0.gen.2.fovs = [⟨0, 0, 60, 45⟩] ∧ s0.planner.cloud = [] ∧
    ∀ i ≤ n, (newestPose exampleUninit (plannedEvents ++ pre i)) = (⟨0, 0, 3⟩, headed 0) ∧ (m i).position = V3.fin ⟨0, 0, 3⟩ ∧ (m i).yaw = 0 := by
  have n20 : ((⟨0, 0, 23⟩ : V3 ℝ).minus ⟨0, 0, 3⟩).norm = 20 := by
    unfold V3.norm V3.dot V3.minus
    norm_num
    rw [show (400 : ℝ) = 20 ^ 2 by norm_num, Real.sqrt_sq (by norm_num)]
  obtain ⟨s0, h0, hidle, hcmd, hstart, hgoal, hland, htake, hnav, hcloud, hpath, hsent, hfov, hspeed, hmode, hal, hgp, hhover⟩ := planned_start Q ⟨0, 0, 23⟩ (by rw [n20]; norm_num)
  let pol : NodeSt → V3 ℝ × Quat ℝ := fun _ => (⟨0, 0, 3⟩, headed 0)
  have hn : (0 : ℝ) < (n : ℝ) + 2 := by positivity
  let t : ℕ → ℝ := fun i => i * (4 / ((n : ℝ) + 2))
  have ht : ∀ i ≤ n + 2, t i - s0.start_time ≤ 5 := fun i hi => by
    rw [hstart]
    show (i : ℝ) * (4 / ((n : ℝ) + 2)) - 0 ≤ 5
    have h1 : (i : ℝ) ≤ (n : ℝ) + 2 := by exact_mod_cast hi
    have h2 := mul_le_mul_of_nonneg_right h1 (by positivity : (0 : ℝ) ≤ 4 / ((n : ℝ) + 2))
    have h3 : ((n : ℝ) + 2) * (4 / ((n : ℝ) + 2)) = 4 := by field_simp
    linarith
  have r := fly_rounds (Q := Q) pol t s0 hcmd n (fun i hi => ht (i + 2) (by omega))
  have hyaw : getYawFromQuaternion (headed 0) = 0 := by
    unfold getYawFromQuaternion headed atan2
    norm_num
    left
    rw [Complex.arg_eq_zero_iff]
    norm_num
  have hpitch := headed_pitch 0
  -- the direction straight up, and the own position, are outside the camera
  have hside : ∀ w : V3 ℝ, w.x = 0 → w.y = 0 → ∀ pitch yaw : ℝ, pitch = 0 → yaw = 0 →
      pointInsideYawFOV [(⟨0, 0, 60, 45⟩ : FOV ℝ)] (wrapPolar ⟨(cartesianToPolarFCU w ⟨0, 0, 3⟩).e - pitch, (cartesianToPolarFCU w ⟨0, 0, 3⟩).z - yaw,
        (cartesianToPolarFCU w ⟨0, 0, 3⟩).r⟩) = false := by
    rintro w hx hy _ _ rfl rfl
    have hz : (cartesianToPolarFCU w ⟨0, 0, 3⟩).z = 90 := by
      unfold cartesianToPolarFCU
      dsimp only
      obtain ⟨-, -, b1, b2, -⟩ := C05_polar_ranges w ⟨0, 0, 3⟩
      have e0 : (cartesianToPolarHistogram w ⟨0, 0, 3⟩).z = 0 := by
        unfold cartesianToPolarHistogram atan2
        dsimp only
        rw [hx, hy]
        norm_num
        left
        exact Complex.arg_zero
      rw [e0, C03_wrapPolar_fixed _ (by dsimp only; linarith) (by dsimp only; linarith) (by norm_num) (by norm_num)]
      norm_num
    obtain ⟨⟨p1, p2⟩, -⟩ := C03_wrapPolar_range ⟨-(cartesianToPolarHistogram w ⟨0, 0, 3⟩).e, -(cartesianToPolarHistogram w ⟨0, 0, 3⟩).z + 90, (cartesianToPolarHistogram w ⟨0, 0, 3⟩).r⟩
    have p1 : -90 ≤ (cartesianToPolarFCU w ⟨0, 0, 3⟩).e := p1
    have p2 : (cartesianToPolarFCU w ⟨0, 0, 3⟩).e ≤ 90 := p2
    rw [hz, C03_wrapPolar_fixed _ (by dsimp only; linarith) (by dsimp only; linarith) (by norm_num) (by norm_num)]
    unfold pointInsideYawFOV pointInsideYawFOV1 pointInsideYawFOV
    norm_num [wrap180]
  have hscale : ∀ w : V3 ℝ, w.x = 0 → w.y = 0 → ∀ pitch yaw : ℝ, pitch = 0 → yaw = 0 →
      (scaleToFOV [(⟨0, 0, 60, 45⟩ : FOV ℝ)] (wrapPolar ⟨(cartesianToPolarFCU w ⟨0, 0, 3⟩).e - pitch, (cartesianToPolarFCU w ⟨0, 0, 3⟩).z - radToDeg * yaw,
        (cartesianToPolarFCU w ⟨0, 0, 3⟩).r⟩)).getD 0 = 0 := by
    intro w hx hy pitch yaw hp hq
    obtain ⟨-, ⟨w3, w4⟩, -⟩ := C03_wrapPolar_range ⟨(cartesianToPolarFCU w ⟨0, 0, 3⟩).e - pitch, (cartesianToPolarFCU w ⟨0, 0, 3⟩).z - radToDeg * yaw, (cartesianToPolarFCU w ⟨0, 0, 3⟩).r⟩
    obtain ⟨s, -, h1, -, -, -, -, h6, -⟩ := C13_scaleToFOV [(⟨0, 0, 60, 45⟩ : FOV ℝ)] (wrapPolar ⟨(cartesianToPolarFCU w ⟨0, 0, 3⟩).e - pitch,
      (cartesianToPolarFCU w ⟨0, 0, 3⟩).z - radToDeg * yaw, (cartesianToPolarFCU w ⟨0, 0, 3⟩).r⟩) (by simp) (by
        intro f hf
        rw [List.mem_singleton] at hf
        subst hf
        rw [abs_le]
        constructor <;> dsimp only <;> linarith)
    rw [h1, h6 (hside w hx hy pitch (radToDeg * yaw) hp (by rw [hq, mul_zero]))]
    rfl
  -- the first two rounds
  have hinput : ∀ i, (inputOf (ready pol (t i) (fly pol t s0 i)) false).position = ⟨0, 0, 3⟩ ∧ (inputOf (ready pol (t i) (fly pol t s0 i)) false).goal = ⟨0, 0, 23⟩ ∧
      (inputOf (ready pol (t i) (fly pol t s0 i)) false).pitch = 0 ∧ (inputOf (ready pol (t i) (fly pol t s0 i)) false).yaw = 0 := by
    intro i
    refine ⟨rfl, ?_, hpitch, ?_⟩
    · show (fly pol t s0 i).goals.goal.val = _
      rw [(fly_keeps pol t s0 hcmd i).2.2.1, hgoal]
    · show getYawFromQuaternion (headed 0) * (Real.pi / 180) = 0
      rw [hyaw, zero_mul]
  have hpitch' : ∀ (x : WgState) (i : WgIn) (now : ℝ), (wgStart x i now).curr_pitch = i.pitch := by
    intro x i now
    unfold wgStart wgUpdate
    rcases ha : i.airborne <;> rcases hs : x.smoothed_loc with _ | l <;> rcases hl : x.auto_land <;> simp [ha, hs, hl]
  have hstill : ∀ i ≤ n + 2, (fly pol t s0 i).gen.1 ≠ .ALTITUDE_CHANGE → (fly pol t s0 i).gen.2.auto_land = false → (fly pol t s0 i).gen.2.speed = 0 →
      (targetOf (fly pol t s0 i).gen.1 (wgStart (fly pol t s0 i).gen.2 (inputOf (ready pol (t i) (fly pol t s0 i)) false) (t i))).out_goto.x = 0 →
      (targetOf (fly pol t s0 i).gen.1 (wgStart (fly pol t s0 i).gen.2 (inputOf (ready pol (t i) (fly pol t s0 i)) false) (t i))).out_goto.y = 0 →
      (fly pol t s0 (i + 1)).gen.2.speed = 0 := by
    intro i hi h1 h2 h3 h4 h5
    obtain ⟨i1, i2, i3, i4⟩ := hinput i
    rw [(fly_sends pol t s0 hcmd i (ht i hi)).1]
    set I := inputOf (ready pol (t i) (fly pol t s0 i)) false with hI
    refine (still_cycle _ I (t i) h2 h3 h1 (by rw [i1, i2, n20]; norm_num) ?_).1
    obtain ⟨-, a2, -, -, -, -, -, -, -, -, -, -, -, -, -, -, -, -, -, a20, -, -, a23, -⟩ := wgStart_spec (fly pol t s0 i).gen.2 I (t i)
    obtain ⟨-, -, m3, -⟩ := targetOf_more (fly pol t s0 i).gen.1 (wgStart (fly pol t s0 i).gen.2 I (t i))
    obtain ⟨-, -, -, -, -, -, t7⟩ := targetOf_filter (fly pol t s0 i).gen.1 (wgStart (fly pol t s0 i).gen.2 I (t i))
    have hp := (targetOf_reach (fly pol t s0 i).gen.1 (wgStart (fly pol t s0 i).gen.2 I (t i))).2.2.2
    have tp : (targetOf (fly pol t s0 i).gen.1 (wgStart (fly pol t s0 i).gen.2 I (t i))).curr_pitch = 0 := by
      rw [← i3, ← hpitch' (fly pol t s0 i).gen.2 I (t i)]
      cases hst : (fly pol t s0 i).gen.1 with
      | ALTITUDE_CHANGE => exact absurd hst h1
      | _ => rfl
    unfold fovFactor
    rw [if_pos h1, m3, a23, fly_fovs, hfov, hp, a2, i1, tp, t7, a20, i4]
    exact hscale _ h4 h5 0 0 rfl rfl
  have g1 : (fly pol t s0 1).gen.1 = .TRY_PATH := by
    rw [(fly_sends pol t s0 hcmd 0 (ht 0 (by omega))).1, C37_next_state, show (fly pol t s0 0).gen.1 = .LOITER from hmode]
    dsimp only
    rw [if_neg (by simp [inputOf])]
  have hal1 : (fly pol t s0 1).gen.2.auto_land = false := by
    refine (no_landing exampleUninit (launchTo ⟨0, 0, 23⟩) (plannedEvents ++ flown pol t s0 1) _ (by rw [loopM_append', h0]; exact fly_run pol t s0 hcmd 1) ?_).2.2
    constructor <;> simp [plannedEvents, startEvents, flown]
  have hpath1 : (fly pol t s0 1).gen.2.planner.path = [] := by
    rw [(fly_sends pol t s0 hcmd 0 (ht 0 (by omega))).1]
    obtain ⟨al, re, sc, ho⟩ := wgCycle_out (fly pol t s0 0).gen (inputOf (ready pol (t 0) (fly pol t s0 0)) false) (t 0)
    obtain ⟨-, -, -, m4, -⟩ := targetOf_more (fly pol t s0 0).gen.1 (wgStart (fly pol t s0 0).gen.2 (inputOf (ready pol (t 0) (fly pol t s0 0)) false) (t 0))
    rw [ho]
    dsimp only
    rw [(getPathMsg_frame _ _).planner, m4, (wgStart_spec _ _ _).1]
    exact hgp
  have sp1 : (fly pol t s0 1).gen.2.speed = 0 := by
    obtain ⟨i1, -⟩ := hinput 0
    have hw : (targetOf (fly pol t s0 0).gen.1 (wgStart (fly pol t s0 0).gen.2 (inputOf (ready pol (t 0) (fly pol t s0 0)) false) (t 0))).out_goto = ⟨0, 0, 3⟩ := by
      obtain ⟨-, a2, -, -, -, -, -, -, -, -, -, -, a13, -⟩ := wgStart_spec (fly pol t s0 0).gen.2 (inputOf (ready pol (t 0) (fly pol t s0 0)) false) (t 0)
      rw [show (fly pol t s0 0).gen.1 = .LOITER from hmode]
      unfold targetOf
      dsimp only
      rw [a2, a13, show (fly pol t s0 0).gen.2.hover_position = none from hhover, i1]
      split_ifs <;> rfl
    exact hstill 0 (by omega) (by rw [show (fly pol t s0 0).gen.1 = .LOITER from hmode]; intro h; cases h) hal hspeed (by rw [hw]) (by rw [hw])
  have sp2 : (fly pol t s0 2).gen.2.speed = 0 := by
    obtain ⟨i1, -⟩ := hinput 1
    have hw : (targetOf (fly pol t s0 1).gen.1 (wgStart (fly pol t s0 1).gen.2 (inputOf (ready pol (t 1) (fly pol t s0 1)) false) (t 1))).out_goto = ⟨0, 0, 3⟩ := by
      obtain ⟨a1, a2, -⟩ := wgStart_spec (fly pol t s0 1).gen.2 (inputOf (ready pol (t 1) (fly pol t s0 1)) false) (t 1)
      rw [g1]
      unfold targetOf
      dsimp only
      rw [a2, i1]
      have hnone : ∀ now, (wgSetpoint (wgStart (fly pol t s0 1).gen.2 (inputOf (ready pol (t 1) (fly pol t s0 1)) false) (t 1)).planner now).2 = none := by
        intro now
        rw [a1]
        unfold wgSetpoint
        rw [hpath1]
        cases (fly pol t s0 1).gen.2.planner.cruise_velocity <;> simp [getSetpointFromPath]
      rw [hnone]
    exact hstill 1 (by omega) (by rw [g1]; intro h; cases h) hal1 sp1 (by rw [hw]) (by rw [hw])
  have hlen2 : (fly pol t s0 2).sent.length = 2 := by
    rw [(fly_sends pol t s0 hcmd 1 (ht 1 (by omega))).2, (fly_sends pol t s0 hcmd 0 (ht 0 (by omega))).2, List.length_append, List.length_append]
    show s0.sent.length + 1 + 1 = 2
    rw [hsent]; rfl
  have hth0 : s0.sent.length + 2 ≤ (ready pol (t (0 + 2)) (fly pol t s0 (0 + 2))).sent.length := by
    show s0.sent.length + 2 ≤ (fly pol t s0 2).sent.length
    rw [hlen2, hsent]
    simp
  have hgoals : ∀ i, (ready pol (t (i + 2)) (fly pol t s0 (i + 2))).goals.goal.val = ⟨0, 0, 23⟩ := fun i => by
    show (fly pol t s0 (i + 2)).goals.goal.val = _
    rw [(fly_keeps pol t s0 hcmd (i + 2)).2.2.1, hgoal]
  have hgoto : ∀ i ≤ n, (flownMsg pol t s0 i).goto.x = 0 ∧ (flownMsg pol t s0 i).goto.y = 0 := by
    intro i hi
    obtain ⟨-, hw, -⟩ := C110_straight_to_goal_partial _ _ _ s0 h0 hidle hcloud _ _ _ _ (r.upTo i hi) (r.round i hi) _ (r.sends i hi)
      (planned_clear _ (flownTo_events pol t s0 i)) (planned_free s0 hland htake hnav hpath _ (flownTo_send pol t s0 i _)) (by
        rw [r.length i hi]; omega)
    rw [flownTo_pose, hgoals i] at hw
    obtain ⟨-, k, -, hk⟩ := (hw (by rw [n20]; norm_num)).2 (by intro h; have := congrArg V3.z h; norm_num at this)
    rw [hk]
    unfold V3.plus V3.smul V3.minus
    norm_num
  have main := C112_steep_goal_violated exampleUninit (launchTo ⟨0, 0, 23⟩) plannedEvents s0 h0 hidle hcloud n _ _ _ _ _ r hth0
    (planned_clear _ (flownTo_events pol t s0 n)) (planned_free s0 hland htake hnav hpath _ (flownTo_send pol t s0 n _)) 3
    (planned_within _ _ (flownTo_events pol t s0 n)).1 ⟨0, 0, 23⟩ ⟨0, 0, 3⟩ (headed 0) (fun i _ => hgoals i)
    (fun i _ => by rw [planned_smoothing _ (flownTo_events pol t s0 i)]; norm_num) (fun i _ => flownTo_pose pol t s0 _ _ i) (by rw [n20]; norm_num)
    (by rw [n20]; unfold V3.normXY V3.minus; norm_num) (fun i hi => by
      show pointInsideYawFOV (fly pol t s0 (i + 2)).gen.2.fovs _ = false
      rw [fly_fovs, hfov]
      exact hside _ (hgoto i hi).1 (hgoto i hi).2 _ _ hpitch hyaw) sp2
  refine ⟨s0, _, _, _, _, _, fun i => ?_, h0, r, hgoal, hnav, hfov, hcloud, fun i hi => ⟨flownTo_pose pol t s0 _ _ i, (main i hi).1, ?_⟩⟩
  · show ((i + 1 + 2 : ℕ) : ℝ) * (4 / ((n : ℝ) + 2)) - ((i + 2 : ℕ) : ℝ) * (4 / ((n : ℝ) + 2)) = _
    push_cast
    ring
  · rw [(main i hi).2, hyaw, zero_mul]

end Avoidance
