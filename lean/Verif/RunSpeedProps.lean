import Verif.RunDefinedProps

/-!
# The local planner as a whole: fields of view and speed (C86)
-/

namespace Avoidance

variable {Q : PriorityQueue (Candidate ℝ) Candidate.lt}

/-- The field of view given last for camera `i`. -/
def lastFov (es : List LpEvent) (i : ℕ) : Option (FOV ℝ) :=
  (es.filterMap fun e => match e with | .fov j f => if j = i then some f else none | _ => none).getLast?

/-- Each camera gets its first field of view after those with smaller numbers: the node goes through the cameras in order
(`updatePlannerInfo`, local_planner_nodelet.cpp:165-171). -/
def CamerasInOrder (es : List LpEvent) : Prop :=
  ∀ before i f after, es = before ++ .fov i f :: after → ∀ j < i, (lastFov before j).isSome

/-- The mission speed given last; NaN before. -/
noncomputable def lastMission (es : List LpEvent) : Flt ℝ :=
  ((es.filterMap fun e => match e with | .mission v => some v | _ => none).getLast?).getD .nan

theorem lastFov_snoc (es : List LpEvent) (e : LpEvent) (i : ℕ) (h : ∀ f, e ≠ .fov i f) : lastFov (es ++ [e]) i = lastFov es i := by
  unfold lastFov
  rw [filterMap_snoc_none]
  cases e with
  | fov j f =>
    by_cases hj : j = i
    · subst hj; exact absurd rfl (h f)
    · exact if_neg hj
  | _ => rfl

/-- **C86, fields of view.** After any history in which the cameras come in order, the planner uses for each camera exactly the field of
view given for it last, and none for other cameras. -/
theorem C86_fields_of_view (es : List LpEvent) : ∀ s, loopM (lpStep Q) lpInit es = some s → CamerasInOrder es →
    ∀ i, s.fovs[i]? = lastFov es i := by
  induction es using List.reverseRecOn with
  | nil =>
    intro s h _ i
    obtain rfl := Option.some.inj h
    rfl
  | append_singleton es e ih =>
    intro s' h hord i
    obtain ⟨s, h1, h2⟩ := loopM_snoc h
    have hord' : CamerasInOrder es := by
      intro b j f a hb
      exact hord b j f (a ++ [e]) (by rw [hb]; simp)
    have k := ih s h1 hord'
    have other : (∀ j f, e ≠ .fov j f) → s'.fovs = s.fovs → s'.fovs[i]? = lastFov (es ++ [e]) i := by
      intro hne he
      rw [lastFov_snoc es e i (hne i), he]
      exact k i
    cases e with
    | fov j f =>
      obtain rfl := Option.some.inj h2
      have hlen : j ≤ s.fovs.length := by
        by_contra hlt
        have := hord es j f [] rfl s.fovs.length (by omega)
        rw [← k, List.getElem?_eq_none le_rfl] at this
        cases this
      have hnew : lastFov (es ++ [.fov j f]) j = some f := by
        unfold lastFov
        exact filterMap_snoc_some _ es (.fov j f) f (if_pos rfl)
      show (s.setFOV j f).fovs[i]? = _
      unfold LPlanner.setFOV
      dsimp only
      by_cases hj : i = j
      · subst hj
        rw [hnew]
        by_cases hl : i < s.fovs.length
        · rw [if_pos hl, List.getElem?_set_self hl]
        · rw [if_neg hl, show i = s.fovs.length by omega, List.getElem?_concat_length]
      · rw [lastFov_snoc es _ i (by intro f' hf; injection hf with h1; exact hj h1.symm), ← k]
        by_cases hl : j < s.fovs.length
        · rw [if_pos hl, List.getElem?_set_ne (fun e => hj e.symm)]
        · rw [if_neg hl]
          by_cases hi : i < s.fovs.length
          · rw [List.getElem?_append_left hi]
          · rw [List.getElem?_eq_none (l := s.fovs ++ [f]) (by rw [List.length_append, List.length_singleton]; omega), List.getElem?_eq_none (by omega)]
    | run now => exact other (by intro j f; simp) (run_inputs h2).a8
    | config c =>
      obtain rfl := Option.some.inj h2
      obtain ⟨-, -, -, -, -, -, -, -, -, -, -, -, g, -⟩ := configure_goal s c
      exact other (by intro j f; simp) g
    | _ =>
      obtain rfl := Option.some.inj h2
      exact other (by intro j f; simp) rfl

/-- If the cameras do not come in order a field of view is used for the wrong camera. -/
theorem C86_order_needed (f g : FOV ℝ) : ∃ s, loopM (lpStep Q) lpInit [.fov 1 f, .fov 0 g] = some s ∧ s.fovs = [g] :=
  ⟨_, rfl, rfl⟩

theorem mission_known (es : List LpEvent) : ∀ s, loopM (lpStep Q) lpInit es = some s → s.mission_speed = lastMission es := by
  induction es using List.reverseRecOn with
  | nil =>
    intro s h
    obtain rfl := Option.some.inj h
    rfl
  | append_singleton es e ih =>
    intro s' h
    obtain ⟨s, h1, h2⟩ := loopM_snoc h
    have k := ih s h1
    unfold lastMission
    cases e with
    | mission l =>
      obtain rfl := Option.some.inj h2
      rw [filterMap_snoc_some _ es (.mission l) l rfl]
      rfl
    | run now =>
      rw [filterMap_snoc_none _ _ _ rfl, (run_inputs h2).a15]
      exact k
    | config c =>
      obtain rfl := Option.some.inj h2
      have g : (s.configure c).mission_speed = s.mission_speed := by
        unfold LPlanner.configure
        dsimp only
        split_ifs <;> rfl
      rw [filterMap_snoc_none _ _ _ rfl]
      exact g.trans k
    | _ =>
      obtain rfl := Option.some.inj h2
      rw [filterMap_snoc_none _ _ _ rfl]
      exact k

/-- **C86, speed.** The speed handed out with a path is the cruise velocity (C33) for the last autopilot parameters, the last configured
sensor range and the last mission speed. -/
theorem C86_speed (es : List LpEvent) (s : LPlanner) (h : loopM (lpStep Q) lpInit es = some s) (c : LpConfig)
    (hc : lastConfig es = some c) (px : LpPx4) (hx : lastPx4 es = some px) :
    s.output.1 = cruiseVelocity ⟨px.acc_hor, px.jerk_max, px.xy_cruise⟩ c.max_sensor_range (lastMission es) := by
  have k := knows es s h
  unfold LPlanner.output
  dsimp only
  rw [(k.config c hc).p1, k.px4 px hx, mission_known es s h]

/-- Non-vacuity. -/
example : CamerasInOrder exampleLpHistory ∧ lastFov exampleLpHistory 0 = some ⟨0, 0, 60, 45⟩ := by
  refine ⟨?_, rfl⟩
  intro b i f a h j hj
  have hm : LpEvent.fov i f ∈ exampleLpHistory := by rw [h]; simp
  simp [exampleLpHistory] at hm
  omega

end Avoidance
