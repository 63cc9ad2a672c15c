import Verif.NodeRunProps

/-!
# C95 – the status reported to the autopilot, end to end (local_planner_nodelet.cpp:233-277, avoidance_node.cpp:45-83)
-/

set_option linter.unusedSectionVars false

namespace Avoidance

variable {Q : PriorityQueue (Candidate ℝ) Candidate.lt}

/-! ## Specification -/

/-- The last time-out configured for the wait for a position, in seconds. -/
def newestTimeout : List NodeEvent → ℝ :=
  newest (fun e => match e with | .config _ _ _ t => some t | _ => none) 20
/-- When the timer last started the command loop. -/
def lastTimer : List NodeEvent → Option ℝ :=
  newest (fun e => match e with | .timer t => some (some t) | _ => none) none

/-- The status a round of the command loop should report: `age` seconds after the last plan was handed over, `up` seconds after the start. -/
noncomputable def roundStatus (age up : ℝ) : MavState :=
  if 15 < age ∧ 15 < up then .FLIGHT_TERMINATION else if 1 / 2 < age ∧ 5 < up then .CRITICAL else .ACTIVE

/-- After `es`, at `now`, the command loop has waited longer than configured. -/
def Expired (es : List NodeEvent) (now : ℝ) : Prop := ∃ t0, lastTimer es = some t0 ∧ newestTimeout es < now - t0

/-- After `before`, nothing in `after` finishes a round of the command loop or finds that the wait for a position took too long. -/
def Quiet (before after : List NodeEvent) : Prop :=
  ∀ b e a, after = b ++ e :: a → (∀ t, e ≠ .send t) ∧ ∀ t, e = .poll t → ¬ Expired (before ++ b) t

/-! ## Proofs -/

theorem newestTimeout_snoc (es : List NodeEvent) (e : NodeEvent) : newestTimeout (es ++ [e]) =
    (match (generalizing := false) e with | .config _ _ _ t => t | _ => newestTimeout es) := by
  cases e <;> first | exact newest_snoc_some _ _ _ _ _ rfl | exact newest_snoc_none _ _ _ _ rfl

theorem lastTimer_snoc (es : List NodeEvent) (e : NodeEvent) : lastTimer (es ++ [e]) =
    (match (generalizing := false) e with | .timer t => some t | _ => lastTimer es) := by
  cases e <;> first | exact newest_snoc_some _ _ _ _ _ rfl | exact newest_snoc_none _ _ _ _ rfl

/-- What one event does to the command loop, the time-out and the status. -/
theorem status_step {s s' : NodeSt} {e : NodeEvent} (h : nodeStep Q s e = some s') :
    s'.timeout = (match (generalizing := false) e with | .config _ _ _ t => t | _ => s.timeout) ∧
    s'.cmd = (match (generalizing := false) e with | .timer t => some t | .send _ => none | _ => s.cmd) ∧
    s'.status = (match (generalizing := false) e with
      | .send now => roundStatus (now - s.last_wp_time) (now - s.start_time)
      | .poll now => if (∃ t0, s.cmd = some t0 ∧ s.timeout < now - t0) then .FLIGHT_TERMINATION else s.status
      | _ => s.status) ∧
    s'.position_received = (match (generalizing := false) e with | .pose _ _ => true | .send _ => false | _ => s.position_received) ∧
    (∀ t, e = .send t → s.cmd.isSome = true ∧ s.position_received = true) ∧
    (∀ t, e = .poll t → s.cmd.isSome = true ∧ s.position_received = false) ∧
    (∀ t, e = .timer t → s.cmd = none) ∧ (∀ t, e = .planEnd t → s.cmd = none) := by
  cases e with
  | config c a b t =>
    unfold nodeStep at h
    dsimp only at h
    split_ifs at h
    obtain rfl := Option.some.inj h
    exact ⟨rfl, rfl, rfl, rfl, fun _ h => (by cases h), fun _ h => (by cases h), fun _ h => (by cases h), fun _ h => (by cases h)⟩
  | planStart f t =>
    unfold nodeStep at h
    dsimp only at h
    split_ifs at h
    rw [Option.map_eq_some_iff] at h
    obtain ⟨pl, -, rfl⟩ := h
    exact ⟨rfl, rfl, rfl, rfl, fun _ h => (by cases h), fun _ h => (by cases h), fun _ h => (by cases h), fun _ h => (by cases h)⟩
  | planEnd t =>
    unfold nodeStep at h
    dsimp only at h
    split_ifs at h with hc
    obtain rfl := Option.some.inj h
    exact ⟨rfl, rfl, rfl, rfl, fun _ h => (by cases h), fun _ h => (by cases h), fun _ h => (by cases h), fun _ _ => hc.2⟩
  | timer t =>
    unfold nodeStep at h
    dsimp only at h
    split_ifs at h with hc
    obtain rfl := Option.some.inj h
    exact ⟨rfl, rfl, rfl, rfl, fun _ h => (by cases h), fun _ h => (by cases h), fun _ _ => hc, fun _ h => (by cases h)⟩
  | poll t =>
    unfold nodeStep at h
    dsimp only at h
    rw [Option.bind_eq_some_iff] at h
    obtain ⟨t0, ht, h⟩ := h
    by_cases hp : s.position_received = true
    · rw [if_pos hp] at h
      cases h
    · rw [if_neg hp] at h
      obtain rfl := Option.some.inj h
      have hp' : s.position_received = false := by simpa using hp
      by_cases hx : t - t0 > s.timeout
      · rw [if_pos hx]
        refine ⟨rfl, rfl, ?_, rfl, fun _ h => (by cases h), fun _ _ => ⟨by rw [ht]; rfl, hp'⟩, fun _ h => (by cases h), fun _ h => (by cases h)⟩
        dsimp only
        rw [if_pos ⟨t0, ht, hx⟩]
      · rw [if_neg hx]
        refine ⟨rfl, rfl, ?_, rfl, fun _ h => (by cases h), fun _ _ => ⟨by rw [ht]; rfl, hp'⟩, fun _ h => (by cases h), fun _ h => (by cases h)⟩
        dsimp only
        rw [if_neg]
        rintro ⟨t1, e1, e2⟩
        rw [ht] at e1
        obtain rfl := Option.some.inj e1
        exact hx e2
  | send t =>
    unfold nodeStep at h
    dsimp only at h
    split_ifs at h with hc
    obtain rfl := Option.some.inj h
    obtain ⟨-, -, -, -, -, -, -, -, -, -, -, -, -, q14, q15, -, q17⟩ := sendStep_keeps s t
    refine ⟨q17, q14, ?_, q15, fun _ _ => hc, fun _ h => (by cases h), fun _ h => (by cases h), fun _ h => (by cases h)⟩
    unfold sendStep checkFailsafe roundStatus
    dsimp only
    split_ifs <;> simp_all
  | _ =>
    obtain rfl := Option.some.inj h
    exact ⟨rfl, rfl, rfl, rfl, fun _ h => (by cases h), fun _ h => (by cases h), fun _ h => (by cases h), fun _ h => (by cases h)⟩

/-- The command loop knows when it was started and how long it may wait. -/
theorem status_knows (u : Uninit) (l : Launch) (es : List NodeEvent) : ∀ s, loopM (nodeStep Q) (nodeInit u l) es = some s →
    s.timeout = newestTimeout es ∧ (∀ t0, s.cmd = some t0 → lastTimer es = some t0) := by
  induction es using List.reverseRecOn with
  | nil =>
    intro s h
    obtain rfl := Option.some.inj h
    exact ⟨rfl, fun t0 h => (by cases h)⟩
  | append_singleton es e ih =>
    intro s h
    rw [loopM_append', Option.bind_eq_some_iff] at h
    obtain ⟨s0, h0, h1⟩ := h
    have h1 : (nodeStep Q s0 e).bind some = some s := h1
    rw [Option.bind_fun_some] at h1
    obtain ⟨i1, i2⟩ := ih s0 h0
    obtain ⟨a1, a2, -⟩ := status_step h1
    rw [newestTimeout_snoc, lastTimer_snoc, a1, a2]
    cases e <;> first
      | exact ⟨i1, i2⟩
      | exact ⟨rfl, i2⟩
      | exact ⟨i1, fun t0 h => h⟩
      | exact ⟨i1, fun t0 h => nomatch h⟩

/-- An expired wait is one the node notices. -/
theorem expired_iff (u : Uninit) (l : Launch) (es : List NodeEvent) (s s' : NodeSt) (now : ℝ) (h : loopM (nodeStep Q) (nodeInit u l) es = some s)
    (hs : nodeStep Q s (.poll now) = some s') : (∃ t0, s.cmd = some t0 ∧ s.timeout < now - t0) ↔ Expired es now := by
  obtain ⟨k1, k2⟩ := status_knows u l es s h
  obtain ⟨-, -, -, -, -, a6, -⟩ := status_step hs
  obtain ⟨hc, -⟩ := a6 now rfl
  obtain ⟨t0, ht⟩ := Option.isSome_iff_exists.mp hc
  unfold Expired
  rw [← k1, k2 t0 ht, ht]

/-- **C95, one event.** After any history: a finished round of the command loop reports by the age of the last plan handed over and the time since the start;
a turn of the waiting loop reports `FLIGHT_TERMINATION` if the wait has lasted longer than the configured time-out; nothing else changes the status. -/
theorem C95_step (u : Uninit) (l : Launch) (es : List NodeEvent) (s s' : NodeSt) (e : NodeEvent)
    (h : loopM (nodeStep Q) (nodeInit u l) es = some s) (hs : nodeStep Q s e = some s') :
    (∀ now, e = .send now → s'.status = roundStatus (now - newestPlan es) (now - l.start)) ∧
    (∀ now, e = .poll now → (Expired es now → s'.status = .FLIGHT_TERMINATION) ∧ (¬ Expired es now → s'.status = s.status)) ∧
    ((∀ now, e ≠ .send now) → (∀ now, e ≠ .poll now) → s'.status = s.status) := by
  have k := nodeKnows u l es s h
  obtain ⟨-, -, a3, -⟩ := status_step hs
  refine ⟨?_, ?_, ?_⟩
  · rintro now rfl
    rw [a3, ← k.plan, ← k.start]
  · rintro now rfl
    have hx := expired_iff u l es s s' now h hs
    dsimp only at a3
    constructor
    · intro he
      rw [a3, if_pos (hx.mpr he)]
    · intro he
      rw [a3, if_neg (fun hh => he (hx.mp hh))]
  · intro h1 h2
    rw [a3]
    cases e with
    | send t => exact absurd rfl (h1 t)
    | poll t => exact absurd rfl (h2 t)
    | _ => rfl

/-- The status over a stretch in which nothing decides it. -/
theorem status_quiet (u : Uninit) (l : Launch) (before after : List NodeEvent) (s0 : NodeSt) (h0 : loopM (nodeStep Q) (nodeInit u l) before = some s0) : ∀ s,
    loopM (nodeStep Q) s0 after = some s → Quiet before after → s.status = s0.status := by
  induction after using List.reverseRecOn with
  | nil =>
    intro s h _
    obtain rfl := Option.some.inj h
    rfl
  | append_singleton after e ih =>
    intro s h hq
    rw [loopM_append', Option.bind_eq_some_iff] at h
    obtain ⟨s1, h1, h2⟩ := h
    have h2 : (nodeStep Q s1 e).bind some = some s := h2
    rw [Option.bind_fun_some] at h2
    have i := ih s1 h1 (fun b x a hb => hq b x (a ++ [e]) (by rw [hb]; simp))
    rw [← i]
    obtain ⟨q1, q2⟩ := hq after e [] rfl
    have hall : loopM (nodeStep Q) (nodeInit u l) (before ++ after) = some s1 := by
      rw [loopM_append', h0]
      exact h1
    obtain ⟨-, b2, b3⟩ := C95_step u l _ s1 s e hall h2
    by_cases hp : ∃ t, e = .poll t
    · obtain ⟨t, rfl⟩ := hp
      exact (b2 t rfl).2 (q2 t rfl)
    · push Not at hp
      exact b3 q1 hp

/-- **C95, the status after a history.** It is `BOOT` until the first round of the command loop; then that of the last round (`roundStatus`), until a turn of
the waiting loop finds that it has waited longer than configured: from then on `FLIGHT_TERMINATION`, until the next round. -/
theorem C95_status (u : Uninit) (l : Launch) (es : List NodeEvent) (s : NodeSt) (h : loopM (nodeStep Q) (nodeInit u l) es = some s) :
    (Quiet [] es → s.status = .BOOT) ∧
    (∀ before now after, es = before ++ .send now :: after → Quiet (before ++ [.send now]) after →
      s.status = roundStatus (now - newestPlan before) (now - l.start)) ∧
    (∀ before now after, es = before ++ .poll now :: after → Expired before now → (∀ t, NodeEvent.send t ∉ after) → s.status = .FLIGHT_TERMINATION) := by
  have split : ∀ before e after, es = before ++ e :: after → ∃ s0 s1, loopM (nodeStep Q) (nodeInit u l) before = some s0 ∧ nodeStep Q s0 e = some s1 ∧
      loopM (nodeStep Q) (nodeInit u l) (before ++ [e]) = some s1 ∧ loopM (nodeStep Q) s1 after = some s := by
    rintro before e after rfl
    rw [loopM_append', Option.bind_eq_some_iff] at h
    obtain ⟨s0, h0, h1⟩ := h
    have h1 : (nodeStep Q s0 e).bind (fun t => loopM (nodeStep Q) t after) = some s := h1
    rw [Option.bind_eq_some_iff] at h1
    obtain ⟨s1, h1, h2⟩ := h1
    refine ⟨s0, s1, h0, h1, ?_, h2⟩
    rw [loopM_append', h0]
    show (nodeStep Q s0 e).bind some = _
    rw [h1]
    rfl
  refine ⟨fun hq => ?_, ?_, ?_⟩
  · exact status_quiet u l [] es _ rfl s h hq
  · intro before now after he hq
    obtain ⟨s0, s1, h0, h1, h2, h3⟩ := split _ _ _ he
    rw [status_quiet u l _ after s1 h2 s h3 hq, (C95_step u l before s0 s1 _ h0 h1).1 now rfl]
  · intro before now after he hx hns
    obtain ⟨s0, s1, h0, h1, h2, h3⟩ := split _ _ _ he
    have hs1 : s1.status = .FLIGHT_TERMINATION := ((C95_step u l before s0 s1 _ h0 h1).2.1 now rfl).1 hx
    clear split
    -- further turns of the waiting loop do not take it back
    have key : ∀ (after : List NodeEvent) (s1 s : NodeSt), loopM (nodeStep Q) s1 after = some s → (∀ t, NodeEvent.send t ∉ after) →
        s1.status = .FLIGHT_TERMINATION → s.status = .FLIGHT_TERMINATION := by
      intro after
      induction after with
      | nil =>
        intro s1 s h _ hs
        obtain rfl := Option.some.inj h
        exact hs
      | cons e after ih =>
        intro s1 s h hn hs
        have h : (nodeStep Q s1 e).bind (fun t => loopM (nodeStep Q) t after) = some s := h
        rw [Option.bind_eq_some_iff] at h
        obtain ⟨s2, h2, h3⟩ := h
        refine ih s2 s h3 (fun t ht => hn t (List.mem_cons_of_mem _ ht)) ?_
        obtain ⟨-, -, a3, -⟩ := status_step h2
        rw [a3]
        cases e with
        | send t => exact absurd List.mem_cons_self (hn t)
        | poll t =>
          dsimp only
          split_ifs
          · rfl
          · exact hs
        | _ => exact hs
    exact key after s1 s h3 hns hs1

/-- Every history is quiet, or is quiet after a round or after an expired wait. -/
theorem quiet_or (es : List NodeEvent) : Quiet [] es ∨
    (∃ before now after, es = before ++ .send now :: after ∧ Quiet (before ++ [.send now]) after) ∨
    (∃ before now after, es = before ++ .poll now :: after ∧ Expired before now ∧ ∀ t, NodeEvent.send t ∉ after) := by
  have snoc : ∀ (x y b a : List NodeEvent) (e e' : NodeEvent), y ++ [e] = b ++ e' :: a → (b = y ∧ e' = e ∧ a = []) ∨ ∃ a', a = a' ++ [e] ∧ y = b ++ e' :: a' := by
    intro x y b a e e' h
    rcases List.eq_nil_or_concat a with rfl | ⟨a', z, rfl⟩
    · left
      have := List.append_inj' h rfl
      exact ⟨this.1.symm, (List.cons.inj this.2).1.symm, rfl⟩
    · right
      have h : y ++ [e] = (b ++ e' :: a') ++ [z] := by rw [h]; simp
      have := List.append_inj' h rfl
      obtain ⟨h1, h2⟩ := this
      obtain rfl := (List.cons.inj h2).1
      exact ⟨a', by simp, h1⟩
  induction es using List.reverseRecOn with
  | nil => exact Or.inl (fun b e a h => by simp at h)
  | append_singleton es e ih =>
    by_cases hs : ∃ t, e = .send t
    · obtain ⟨t, rfl⟩ := hs
      exact Or.inr (Or.inl ⟨es, t, [], rfl, fun b e a h => by simp at h⟩)
    push Not at hs
    by_cases hp : ∃ t, e = .poll t ∧ Expired es t
    · obtain ⟨t, rfl, hx⟩ := hp
      exact Or.inr (Or.inr ⟨es, t, [], rfl, hx, fun t h => by simp at h⟩)
    push Not at hp
    rcases ih with hq | ⟨before, now, after, rfl, hq⟩ | ⟨before, now, after, rfl, hx, hn⟩
    · left
      intro b e' a hb
      rcases snoc [] _ _ _ _ _ hb with ⟨rfl, rfl, rfl⟩ | ⟨a', rfl, h⟩
      · exact ⟨hs, hp⟩
      · exact hq b e' a' h
    · right; left
      refine ⟨before, now, after ++ [e], by simp, ?_⟩
      intro b e' a hb
      rcases snoc [] _ _ _ _ _ hb with ⟨rfl, rfl, rfl⟩ | ⟨a', rfl, h⟩
      · refine ⟨hs, fun t ht => ?_⟩
        have := hp t ht
        simpa using this
      · exact hq b e' a' h
    · right; right
      refine ⟨before, now, after ++ [e], by simp, hx, ?_⟩
      intro t ht
      rcases List.mem_append.mp ht with h | h
      · exact hn t h
      · rw [List.mem_singleton] at h
        exact hs t h.symm

/-- **C95, active means flying on a new plan.** If the status is `ACTIVE`, some round was finished, the last of them sent a setpoint, and it was at most half a second after the last
plan was handed over or at most 5 s after the start. -/
theorem C95_active (u : Uninit) (l : Launch) (es : List NodeEvent) (s : NodeSt) (h : loopM (nodeStep Q) (nodeInit u l) es = some s)
    (ha : s.status = .ACTIVE) : ∃ before now after s0 s1 m, es = before ++ .send now :: after ∧ (∀ t, NodeEvent.send t ∉ after) ∧
      loopM (nodeStep Q) (nodeInit u l) before = some s0 ∧ nodeStep Q s0 (.send now) = some s1 ∧ s1.sent = s0.sent ++ [m] ∧ m.time = now ∧
      (now - newestPlan before ≤ 1 / 2 ∨ now - l.start ≤ 5) := by
  obtain ⟨c1, c2, c3⟩ := C95_status u l es s h
  rcases quiet_or es with hq | ⟨before, now, after, he, hq⟩ | ⟨before, now, after, he, hx, hn⟩
  · rw [c1 hq] at ha
    cases ha
  · rw [c2 before now after he hq] at ha
    have hor : now - newestPlan before ≤ 1 / 2 ∨ now - l.start ≤ 5 := by
      unfold roundStatus at ha
      split_ifs at ha with h1 h2
      rw [not_and_or, not_lt, not_lt] at h2
      exact h2
    have h' := h
    rw [he, loopM_append', Option.bind_eq_some_iff] at h'
    obtain ⟨s0, h0, h1⟩ := h'
    have h1 : (nodeStep Q s0 (.send now)).bind (fun t => loopM (nodeStep Q) t after) = some s := h1
    rw [Option.bind_eq_some_iff] at h1
    obtain ⟨s1, h1, h2⟩ := h1
    refine ⟨before, now, after, s0, s1, _, he, ?_, h0, h1, ((C91_message u l before s0 s1 now h0 h1).1 hor).2, rfl, hor⟩
    intro t ht
    obtain ⟨b, a, hb⟩ := List.append_of_mem ht
    exact (hq b (.send t) a hb).1 t rfl
  · rw [c3 before now after he hx hn] at ha
    cases ha

/-- Since the last round no position has arrived, if a turn of the waiting loop can happen. -/
theorem no_pose_since (u : Uninit) (l : Launch) (es : List NodeEvent) : ∀ s, loopM (nodeStep Q) (nodeInit u l) es = some s → s.position_received = false →
    (∀ p q, NodeEvent.pose p q ∉ es) ∨ ∃ b t a, es = b ++ .send t :: a ∧ ∀ p q, NodeEvent.pose p q ∉ a := by
  induction es using List.reverseRecOn with
  | nil => intro s _ _; exact Or.inl (fun p q h => by simp at h)
  | append_singleton es e ih =>
    intro s h hp
    rw [loopM_append', Option.bind_eq_some_iff] at h
    obtain ⟨s0, h0, h1⟩ := h
    have h1 : (nodeStep Q s0 e).bind some = some s := h1
    rw [Option.bind_fun_some] at h1
    obtain ⟨-, -, -, a4, -⟩ := status_step h1
    by_cases hs : ∃ t, e = .send t
    · obtain ⟨t, rfl⟩ := hs
      exact Or.inr ⟨es, t, [], rfl, fun p q h => by simp at h⟩
    · push Not at hs
      have hpe : ∀ p q, e ≠ .pose p q := by
        rintro p q rfl
        rw [a4] at hp
        cases hp
      have hp0 : s0.position_received = false := by
        rw [a4] at hp
        cases e with
        | send t => exact absurd rfl (hs t)
        | pose p q => exact absurd rfl (hpe p q)
        | _ => exact hp
      rcases ih s0 h0 hp0 with i | ⟨b, t, a, rfl, i⟩
      · left
        intro p q hm
        rcases List.mem_append.mp hm with hm | hm
        · exact i p q hm
        · rw [List.mem_singleton] at hm
          exact hpe p q hm.symm
      · right
        refine ⟨b, t, a ++ [e], by simp, ?_⟩
        intro p q hm
        rcases List.mem_append.mp hm with hm | hm
        · exact i p q hm
        · rw [List.mem_singleton] at hm
          exact hpe p q hm.symm

/-- **C95, termination has a cause.** `FLIGHT_TERMINATION` is reported only if the last round found no plan handed over for more than 15 s (and was more than 15 s after
the start), or if the command loop waited longer than configured for a position and none had arrived since the last round. -/
theorem C95_termination (u : Uninit) (l : Launch) (es : List NodeEvent) (s : NodeSt) (h : loopM (nodeStep Q) (nodeInit u l) es = some s)
    (ha : s.status = .FLIGHT_TERMINATION) :
    (∃ before now after, es = before ++ .send now :: after ∧ 15 < now - newestPlan before ∧ 15 < now - l.start) ∨
    (∃ before now after t0, es = before ++ .poll now :: after ∧ lastTimer before = some t0 ∧ newestTimeout before < now - t0 ∧
      ((∀ p q, NodeEvent.pose p q ∉ before) ∨ ∃ b t a, before = b ++ .send t :: a ∧ ∀ p q, NodeEvent.pose p q ∉ a)) := by
  obtain ⟨c1, c2, c3⟩ := C95_status u l es s h
  rcases quiet_or es with hq | ⟨before, now, after, he, hq⟩ | ⟨before, now, after, he, ⟨t0, hx1, hx2⟩, hn⟩
  · rw [c1 hq] at ha
    cases ha
  · rw [c2 before now after he hq] at ha
    left
    refine ⟨before, now, after, he, ?_⟩
    unfold roundStatus at ha
    split_ifs at ha with h1
    exact h1
  · right
    refine ⟨before, now, after, t0, he, hx1, hx2, ?_⟩
    rw [he, loopM_append', Option.bind_eq_some_iff] at h
    obtain ⟨s0, h0, h1⟩ := h
    have h1 : (nodeStep Q s0 (.poll now)).bind (fun t => loopM (nodeStep Q) t after) = some s := h1
    rw [Option.bind_eq_some_iff] at h1
    obtain ⟨s1, h1, h2⟩ := h1
    obtain ⟨-, -, -, -, -, a6, -⟩ := status_step h1
    exact no_pose_since u l before s0 h0 (a6 now rfl).2

/-- **C95, the status is not latched.** Whatever was reported before, a round at most half a second after a plan was handed over reports `ACTIVE` and sends. -/
theorem C95_recovers (u : Uninit) (l : Launch) (es : List NodeEvent) (s s' : NodeSt) (now : ℝ) (h : loopM (nodeStep Q) (nodeInit u l) es = some s)
    (hs : nodeStep Q s (.send now) = some s') (hp : now - newestPlan es ≤ 1 / 2) : s'.status = .ACTIVE ∧ s'.sent.length = s.sent.length + 1 := by
  constructor
  · rw [(C95_step u l es s s' _ h hs).1 now rfl]
    unfold roundStatus
    rw [if_neg (by rintro ⟨a, -⟩; linarith), if_neg (by rintro ⟨a, -⟩; linarith)]
  · rw [((C91_message u l es s s' now h hs).1 (Or.inl hp)).2]
    simp

/-- While the command loop waits for a position, no plan is handed over. -/
theorem waiting_keeps_plan (after : List NodeEvent) : ∀ s0 s : NodeSt, loopM (nodeStep Q) s0 after = some s → s0.cmd.isSome = true →
    (∀ t, NodeEvent.send t ∉ after) → s.last_wp_time = s0.last_wp_time ∧ ∀ t, NodeEvent.planEnd t ∉ after := by
  induction after with
  | nil =>
    intro s0 s h _ _
    obtain rfl := Option.some.inj h
    exact ⟨rfl, fun t h => by simp at h⟩
  | cons e after ih =>
    intro s0 s h hc hn
    have h : (nodeStep Q s0 e).bind (fun t => loopM (nodeStep Q) t after) = some s := h
    rw [Option.bind_eq_some_iff] at h
    obtain ⟨s1, h1, h2⟩ := h
    obtain ⟨-, a2, -, -, -, -, -, a8⟩ := status_step h1
    have hpe : ∀ t, e ≠ .planEnd t := by
      rintro t rfl
      have := a8 t rfl
      rw [this] at hc
      cases hc
    have hc1 : s1.cmd.isSome = true := by
      rw [a2]
      cases e with
      | send t => exact absurd List.mem_cons_self (hn t)
      | timer t => rfl
      | _ => exact hc
    obtain ⟨i1, i2⟩ := ih s1 s h2 hc1 (fun t ht => hn t (List.mem_cons_of_mem _ ht))
    refine ⟨?_, ?_⟩
    · rw [i1]
      cases e with
      | send t => exact absurd List.mem_cons_self (hn t)
      | planEnd t => exact absurd rfl (hpe t)
      | config c a b t =>
        unfold nodeStep at h1
        dsimp only at h1
        split_ifs at h1
        obtain rfl := Option.some.inj h1
        rfl
      | planStart f t =>
        unfold nodeStep at h1
        dsimp only at h1
        split_ifs at h1
        rw [Option.map_eq_some_iff] at h1
        obtain ⟨pl, -, rfl⟩ := h1
        rfl
      | timer t =>
        unfold nodeStep at h1
        dsimp only at h1
        split_ifs at h1
        obtain rfl := Option.some.inj h1
        rfl
      | poll t =>
        unfold nodeStep at h1
        dsimp only at h1
        rw [Option.bind_eq_some_iff] at h1
        obtain ⟨t0, -, h1⟩ := h1
        split_ifs at h1 <;> obtain rfl := Option.some.inj h1 <;> rfl
      | _ =>
        obtain rfl := Option.some.inj h1
        rfl
    · intro t ht
      rcases List.mem_cons.mp ht with h | h
      · exact hpe t h.symm
      · exact i2 t h

/-- **C95, waiting for a position stops the planner's results too (found).** While the command loop waits for a position it holds the lock the worker needs to hand over
its plan: whatever the cameras and the planner do, a round that waited more than half a second (more than 5 s after the start) reports that no plan
arrived, and sends nothing, although a position is there again. -/
theorem C95_position_gap (u : Uninit) (l : Launch) (before mid : List NodeEvent) (t0 now : ℝ) (s s' : NodeSt)
    (h : loopM (nodeStep Q) (nodeInit u l) (before ++ .timer t0 :: mid) = some s) (hmid : ∀ t, NodeEvent.send t ∉ mid)
    (hs : nodeStep Q s (.send now) = some s') (hclock : newestPlan before ≤ t0) (hgap : 1 / 2 < now - t0) (hup : 5 < now - l.start) :
    s'.sent = s.sent ∧ s'.status ≠ .ACTIVE ∧ ∀ t, NodeEvent.planEnd t ∉ mid := by
  have h' := h
  rw [loopM_append', Option.bind_eq_some_iff] at h'
  obtain ⟨s0, h0, h1⟩ := h'
  have h1 : (nodeStep Q s0 (.timer t0)).bind (fun t => loopM (nodeStep Q) t mid) = some s := h1
  rw [Option.bind_eq_some_iff] at h1
  obtain ⟨s1, h1, h2⟩ := h1
  obtain ⟨-, a2, -⟩ := status_step h1
  obtain ⟨i1, i2⟩ := waiting_keeps_plan mid s1 s h2 (by rw [a2]; rfl) hmid
  have hlast : newestPlan (before ++ .timer t0 :: mid) = newestPlan before := by
    rw [← (nodeKnows u l _ s h).plan, i1]
    have e : s1.last_wp_time = s0.last_wp_time := by
      unfold nodeStep at h1
      dsimp only at h1
      split_ifs at h1
      obtain rfl := Option.some.inj h1
      rfl
    rw [e, (nodeKnows u l _ s0 h0).plan]
  have hno : ¬ (now - newestPlan (before ++ .timer t0 :: mid) ≤ 1 / 2 ∨ now - l.start ≤ 5) := by
    rw [hlast]
    rintro (a | a) <;> linarith
  refine ⟨((C91_message u l _ s s' now h hs).2 hno).2, ?_, i2⟩
  rw [(C95_step u l _ s s' _ h hs).1 now rfl, hlast]
  unfold roundStatus
  split_ifs with e1 e2
  · decide
  · decide
  · exact absurd ⟨by linarith, hup⟩ e2

/-! ### Non-vacuity -/

/-- A plan is handed over, the timer starts the loop at once, but the next position comes a second later: nothing is sent. Had it come after a tenth of a second, a setpoint would have been sent,
and the status would be `ACTIVE`. -/
example (Q : PriorityQueue (Candidate ℝ) Candidate.lt) : ∃ before mid s s' s'', loopM (nodeStep Q) (nodeInit exampleUninit exampleLaunch) (before ++ .timer 10 :: mid) = some s ∧
    NodeEvent.planEnd 10 ∈ before ∧ nodeStep Q s (.send 11) = some s' ∧ s'.sent = s.sent ∧ s'.status ≠ .ACTIVE ∧
    nodeStep Q s (.send (101 / 10)) = some s'' ∧ s''.status = .ACTIVE := by
  obtain ⟨s, s1, s2, s3, h0, h1, -, h3, h4, -⟩ := exampleNode_runs Q
  have hall : loopM (nodeStep Q) (nodeInit exampleUninit exampleLaunch) ((exampleNodeStart ++ [.planStart exampleFrame 1, .planEnd 10]) ++ .timer 10 :: [.pose ⟨0, 0, 3⟩ ⟨1, 0, 0, 0⟩]) = some s2 := by
    rw [List.append_assoc, loopM_append', h0]
    show (nodeStep Q s (.planStart exampleFrame 1)).bind _ = _
    rw [h1]
    exact h3
  have hdef : s2.cmd.isSome = true ∧ s2.position_received = true := by
    obtain ⟨-, -, -, -, a5, -⟩ := status_step h4
    exact a5 _ rfl
  have hs : nodeStep Q s2 (.send 11) = some (sendStep s2 11) := if_pos hdef
  have hnp : newestPlan (exampleNodeStart ++ [.planStart exampleFrame 1, .planEnd 10]) = 10 := by
    rw [show exampleNodeStart ++ [NodeEvent.planStart exampleFrame 1, .planEnd 10] = (exampleNodeStart ++ [.planStart exampleFrame 1]) ++ [.planEnd 10] by simp, newestPlan_snoc]
  obtain ⟨g1, g2, -⟩ := C95_position_gap _ _ _ _ 10 11 s2 _ hall (by simp) hs (by rw [hnp]) (by norm_num) (by norm_num [exampleLaunch])
  refine ⟨_, _, s2, _, s3, hall, by simp, hs, g1, g2, h4, (C95_recovers _ _ _ s2 s3 _ hall h4 ?_).1⟩
  rw [show (exampleNodeStart ++ [NodeEvent.planStart exampleFrame 1, .planEnd 10]) ++ .timer 10 :: [.pose ⟨0, 0, 3⟩ ⟨1, 0, 0, 0⟩] =
    ((exampleNodeStart ++ [NodeEvent.planStart exampleFrame 1, .planEnd 10]) ++ [.timer 10]) ++ [.pose ⟨0, 0, 3⟩ ⟨1, 0, 0, 0⟩] by simp, newestPlan_snoc, newestPlan_snoc, hnp]
  norm_num

/-- No position for 21 s after the first start of the loop: `FLIGHT_TERMINATION`. -/
example (Q : PriorityQueue (Candidate ℝ) Candidate.lt) : ∃ s, loopM (nodeStep Q) (nodeInit exampleUninit exampleLaunch) [.timer 0, .poll 21] = some s ∧
    s.status = .FLIGHT_TERMINATION := by
  have h : ∃ s, loopM (nodeStep Q) (nodeInit exampleUninit exampleLaunch) [.timer 0, .poll 21] = some s := ⟨_, rfl⟩
  obtain ⟨s, h⟩ := h
  refine ⟨s, h, (C95_status _ _ _ s h).2.2 [.timer 0] 21 [] rfl ⟨0, rfl, ?_⟩ (by simp)⟩
  show (20 : ℝ) < 21 - 0
  norm_num

end Avoidance
