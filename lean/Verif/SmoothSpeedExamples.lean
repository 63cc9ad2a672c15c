import Verif.SmoothSpeedProps
import Verif.LandTakeoffExamples

/-!
# Flights with smoothing in a closed loop with the local planner node: the hypotheses of C116 are met
-/

namespace Avoidance
variable {Q : PriorityQueue (Candidate ℝ) Candidate.lt}

/-! ## A vehicle in offboard mode that before every setpoint reports a velocity and a pose -/

noncomputable def ready3 (pol : NodeSt → V3 ℝ × V3 ℝ) (t : ℝ) (s : NodeSt) : NodeSt :=
  { s with armed := true, nav := navStateOf "OFFBOARD", velocity := (pol s).2, position := (pol s).1, orientation := headed 0, position_received := true, cmd := some t }

noncomputable def fly3 (pol : NodeSt → V3 ℝ × V3 ℝ) (t : ℕ → ℝ) (s : NodeSt) : ℕ → NodeSt
  | 0 => s
  | i + 1 => sendStep (ready3 pol (t i) (fly3 pol t s i)) (t i)

/-- What is reported before a setpoint. -/
noncomputable def reports (pol : NodeSt → V3 ℝ × V3 ℝ) (s : NodeSt) (t : ℝ) : List NodeEvent :=
  [.state true "OFFBOARD", .velocity (pol s).2, .pose (pol s).1 (headed 0), .timer t]

noncomputable def flown3 (pol : NodeSt → V3 ℝ × V3 ℝ) (t : ℕ → ℝ) (s : NodeSt) : ℕ → List NodeEvent
  | 0 => []
  | i + 1 => flown3 pol t s i ++ (reports pol (fly3 pol t s i) (t i) ++ [.send (t i)])

section
variable (pol : NodeSt → V3 ℝ × V3 ℝ) (t : ℕ → ℝ) (s : NodeSt)

noncomputable def flownTo3 (i : ℕ) : List NodeEvent := flown3 pol t s i ++ reports pol (fly3 pol t s i) (t i)

noncomputable def flownMsg3 (i : ℕ) : SentMsg :=
  messageOf (wgCycle (fly3 pol t s i).gen (inputOf (ready3 pol (t i) (fly3 pol t s i)) false) (t i)).2 (t i)

theorem ready3_run (hc : s.cmd = none) (t : ℝ) : loopM (nodeStep Q) s (reports pol s t) = some (ready3 pol t s) := by
  show (nodeStep Q { s with armed := true, nav := navStateOf "OFFBOARD", velocity := (pol s).2, position := (pol s).1, orientation := headed 0, position_received := true } (.timer t)).bind (fun x => some x) = _
  rw [show nodeStep Q { s with armed := true, nav := navStateOf "OFFBOARD", velocity := (pol s).2, position := (pol s).1, orientation := headed 0, position_received := true } (.timer t) =
    some { s with armed := true, nav := navStateOf "OFFBOARD", velocity := (pol s).2, position := (pol s).1, orientation := headed 0, position_received := true, cmd := some t } from if_pos hc]
  rfl

theorem fly3_keeps (hc : s.cmd = none) : ∀ i, (fly3 pol t s i).cmd = none ∧ (fly3 pol t s i).start_time = s.start_time ∧ (fly3 pol t s i).goals = s.goals := by
  intro i
  induction i with
  | zero => exact ⟨hc, rfl, rfl⟩
  | succ i ih =>
    obtain ⟨k1, k2, k3⟩ := ih
    obtain ⟨-, -, -, -, q5, q6, -, -, q9, -, q11, -, -, q14, -⟩ := sendStep_keeps (ready3 pol (t i) (fly3 pol t s i)) (t i)
    exact ⟨q14, q11.trans k2, q6.trans k3⟩

theorem ready3_send (t : ℝ) : nodeStep Q (ready3 pol t s) (.send t) = some (sendStep (ready3 pol t s) t) := by
  have hyes : ∀ x : NodeSt, x.cmd.isSome = true ∧ x.position_received = true → nodeStep Q x (.send t) = some (sendStep x t) := fun x hx => if_pos hx
  exact hyes _ ⟨rfl, rfl⟩

theorem fly3_run (hc : s.cmd = none) : ∀ i, loopM (nodeStep Q) s (flown3 pol t s i) = some (fly3 pol t s i) := by
  intro i
  induction i with
  | zero => rfl
  | succ i ih =>
    show loopM (nodeStep Q) s (flown3 pol t s i ++ (reports pol (fly3 pol t s i) (t i) ++ [.send (t i)])) = _
    rw [loopM_append', ih]
    show loopM (nodeStep Q) (fly3 pol t s i) _ = _
    rw [loopM_append', ready3_run pol _ (fly3_keeps pol t s hc i).1]
    show loopM (nodeStep Q) (ready3 pol (t i) (fly3 pol t s i)) [.send (t i)] = _
    rw [loopM_one, ready3_send]
    rfl

theorem fly3_sends (hc : s.cmd = none) (i : ℕ) (ht : t i - s.start_time ≤ 5) :
    (fly3 pol t s (i + 1)).sent = (fly3 pol t s i).sent ++ [flownMsg3 pol t s i] := by
  obtain ⟨a1, -⟩ := sendStep_active (ready3 pol (t i) (fly3 pol t s i)) (t i)
  obtain ⟨b1, b2, -⟩ := a1 (Or.inr (by
    show t i - (fly3 pol t s i).start_time ≤ 5
    rw [(fly3_keeps pol t s hc i).2.1]; exact ht))
  exact b2

theorem fly3_rounds (hc : s.cmd = none) (n : ℕ) (ht : ∀ i ≤ n, t i - s.start_time ≤ 5) :
    Rounds Q s n (flownTo3 pol t s) (fun i => ready3 pol (t i) (fly3 pol t s i)) (fun i => fly3 pol t s (i + 1)) t (flownMsg3 pol t s) where
  upTo := fun i _ => by
    unfold flownTo3
    rw [loopM_append', fly3_run pol t s hc]
    exact ready3_run pol _ (fly3_keeps pol t s hc _).1 _
  round := fun i _ => ready3_send pol _ _
  sends := fun i hi => fly3_sends pol t s hc i (ht i hi)
  next := fun i _ => ⟨reports pol (fly3 pol t s (i + 1)) (t (i + 1)), by
    unfold flownTo3
    show (flown3 pol t s i ++ (reports pol (fly3 pol t s i) (t i) ++ [.send (t i)])) ++ _ = _
    simp⟩
  only := fun i _ => rfl

def Reported (e : NodeEvent) : Prop := e = .state true "OFFBOARD" ∨ (∃ v, e = .velocity v) ∨ (∃ p q, e = .pose p q) ∨ (∃ x, e = .timer x) ∨ ∃ x, e = .send x

theorem reports_events (x : NodeSt) (y : ℝ) : ∀ e ∈ reports pol x y, Reported e := by
  intro e he
  unfold reports at he
  simp at he
  rcases he with rfl | rfl | rfl | rfl
  · exact Or.inl rfl
  · exact Or.inr (Or.inl ⟨_, rfl⟩)
  · exact Or.inr (Or.inr (Or.inl ⟨_, _, rfl⟩))
  · exact Or.inr (Or.inr (Or.inr (Or.inl ⟨_, rfl⟩)))

theorem flown3_events : ∀ i, ∀ e ∈ flown3 pol t s i, Reported e := by
  intro i
  induction i with
  | zero => intro e he; cases he
  | succ i ih =>
    intro e he
    rcases List.mem_append.mp he with he | he
    · exact ih e he
    · rcases List.mem_append.mp he with he | he
      · exact reports_events pol _ _ e he
      · rw [List.mem_singleton] at he
        exact Or.inr (Or.inr (Or.inr (Or.inr ⟨_, he⟩)))

theorem flownTo3_events (i : ℕ) : ∀ e ∈ flownTo3 pol t s i, Reported e := by
  intro e he
  rcases List.mem_append.mp he with he | he
  · exact flown3_events pol t s _ e he
  · exact reports_events pol _ _ e he

theorem flownTo3_newest (u : Uninit) (es : List NodeEvent) (i : ℕ) : newestPose u (es ++ flownTo3 pol t s i) = ((pol (fly3 pol t s i)).1, headed 0) ∧
    newestState (es ++ flownTo3 pol t s i) = (true, .offboard) ∧ newestVelocity u (es ++ flownTo3 pol t s i) = (pol (fly3 pol t s i)).2 := by
  unfold flownTo3 reports
  rw [show es ++ (flown3 pol t s i ++ [NodeEvent.state true "OFFBOARD", .velocity (pol (fly3 pol t s i)).2, .pose (pol (fly3 pol t s i)).1 (headed 0), .timer (t i)]) =
    ((((es ++ flown3 pol t s i) ++ [.state true "OFFBOARD"]) ++ [.velocity (pol (fly3 pol t s i)).2]) ++ [.pose (pol (fly3 pol t s i)).1 (headed 0)]) ++ [.timer (t i)] by simp]
  simp only [newestPose_snoc, newestState_snoc, newestVelocity_snoc]
  exact ⟨trivial, rfl, trivial⟩

end

/-- The node is configured with the default smoothing. -/
noncomputable def smoothEvents : List NodeEvent := [.config (exampleTree 1) 10 3 20]

theorem smooth_rest (rest : List NodeEvent) (hr : ∀ e ∈ rest, Reported e) : newestSmoothing (smoothEvents ++ rest) = (10, 3) := by
  induction rest using List.reverseRecOn with
  | nil => rfl
  | append_singleton rest e ih =>
    rw [← List.append_assoc, newestSmoothing_snoc]
    have := ih (fun x hx => hr x (List.mem_append_left _ hx))
    rcases hr e (by simp) with rfl | ⟨v, rfl⟩ | ⟨p, q, rfl⟩ | ⟨x, rfl⟩ | ⟨x, rfl⟩ <;> exact this

theorem smooth_plans (V c : ℝ) (g : V3 ℝ) (rest : List NodeEvent) (hr : ∀ e ∈ rest, Reported e) :
    PlansWithin V (launchTo g) (smoothEvents ++ rest) ∧ PlansFrom c (launchTo g) (smoothEvents ++ rest) ∧ NoLanding (smoothEvents ++ rest) := by
  have hno : ∀ pre f t post, smoothEvents ++ rest ≠ pre ++ .planStart f t :: post := by
    intro pre f t post e
    have hm : NodeEvent.planStart f t ∈ smoothEvents ++ rest := by rw [e]; simp
    rcases List.mem_append.mp hm with hm | hm
    · simp [smoothEvents] at hm
    · rcases hr _ hm with h | ⟨v, h⟩ | ⟨p, q, h⟩ | ⟨x, h⟩ | ⟨x, h⟩ <;> cases h
  refine ⟨fun pre f t post e => absurd e (hno _ _ _ _), fun pre f t post e => absurd e (hno _ _ _ _), fun a hm => ?_, fun x hm => ?_⟩
  · rcases List.mem_append.mp hm with hm | hm
    · simp [smoothEvents] at hm
    · rcases hr _ hm with h | ⟨v, h⟩ | ⟨p, q, h⟩ | ⟨x, h⟩ | ⟨x, h⟩
      · have := (NodeEvent.state.inj h).2
        exact absurd this (by decide)
      all_goals cases h
  · rcases List.mem_append.mp hm with hm | hm
    · simp [smoothEvents] at hm
    · rcases hr _ hm with h | ⟨v, h⟩ | ⟨p, q, h⟩ | ⟨x, h⟩ | ⟨x, h⟩ <;> cases h

/-- The vehicle is at the position published last and reports `k` times its way there as velocity; at first it is at the origin, at rest. -/
noncomputable def goesThere (k : ℝ) (s : NodeSt) : V3 ℝ × V3 ℝ :=
  match s.sent.getLast? with
  | some m => (numbersOf m.position, V3.smul k ((numbersOf m.position).minus s.position))
  | none => (⟨0, 0, 0⟩, ⟨0, 0, 0⟩)

theorem goesThere_last {k : ℝ} {s : NodeSt} {m : SentMsg} (h : s.sent.getLast? = some m) :
    goesThere k s = (numbersOf m.position, V3.smul k ((numbersOf m.position).minus s.position)) := by
  unfold goesThere
  rw [h]

theorem numbersOf_fin (q : V3 ℝ) : numbersOf (V3.fin q) = q := rfl

theorem adapted_here {V : ℝ} (hV : 2 ≤ V) {u : Uninit} {l : Launch} {es : List NodeEvent} {s s' : NodeSt} {now : ℝ} {m : SentMsg} (h : loopM (nodeStep Q) (nodeInit u l) es = some s)
    (hs : nodeStep Q s (.send now) = some s') (hm : s'.sent = s.sent ++ [m]) (hu : ∀ c, u.cruise_velocity = some c → 0 ≤ c ∧ c ≤ V) (hp : PlansWithin V l es) (hn : NoLanding es)
    (hg : m.goto = (newestPose u es).1) : m.adapted = (newestPose u es).1 := by
  obtain ⟨-, ⟨k, -, e⟩, -⟩ := C92_setpoint_partial V hV u l es s s' now h hs m hm hu hp hn
  rw [e, hg]
  unfold V3.plus V3.smul V3.minus
  simp

/-- Flights of every length towards a goal at the height `h` above the vehicle. -/
theorem smooth_flight (Q : PriorityQueue (Candidate ℝ) Candidate.lt) (n : ℕ) (hn : 1 ≤ n) (h : ℝ) (hh : 1 ≤ h) (k : ℝ) (t : ℕ → ℝ) (tau : ℝ) (htau : tau = 4 / ((n : ℝ) + 1))
    (hdt : t = fun i : ℕ => (i : ℝ) * tau) :
    ∃ s0 A S, loopM (nodeStep Q) (nodeInit exampleUninit (launchTo ⟨0, 0, h⟩)) smoothEvents = some s0 ∧
      Rounds Q s0 n (flownTo3 (goesThere k) t s0) A S t (flownMsg3 (goesThere k) t s0) ∧ OffboardTo h smoothEvents n (flownTo3 (goesThere k) t s0) A ∧
      (A 0).gen.2.reach_altitude_offboard = false ∧ Smooths 10 3 smoothEvents n (flownTo3 (goesThere k) t s0) ∧ Airborne smoothEvents n (flownTo3 (goesThere k) t s0) ∧ (∀ i, t (i + 1) - t i = tau) ∧
      (∀ i < n, (flownMsg3 (goesThere k) t s0 i).position = V3.fin (newestPose exampleUninit (smoothEvents ++ flownTo3 (goesThere k) t s0 (i + 1))).1 ∧
        newestVelocity exampleUninit (smoothEvents ++ flownTo3 (goesThere k) t s0 (i + 1)) =
          V3.smul k ((newestPose exampleUninit (smoothEvents ++ flownTo3 (goesThere k) t s0 (i + 1))).1.minus (newestPose exampleUninit (smoothEvents ++ flownTo3 (goesThere k) t s0 i)).1)) ∧
      (newestVelocity exampleUninit (smoothEvents ++ flownTo3 (goesThere k) t s0 0) = ⟨0, 0, 0⟩) ∧
      (flownMsg3 (goesThere k) t s0 0).position = V3.fin ⟨0, 0, 0⟩ ∧ (flownMsg3 (goesThere k) t s0 1).position = V3.fin ⟨0, 0, 0⟩ := by
  have hstart : ∃ a, loopM (nodeStep Q) (nodeInit exampleUninit (launchTo ⟨0, 0, h⟩)) smoothEvents = some a ∧ a.cmd = none ∧ a.start_time = 0 ∧ a.goals.goal.val = ⟨0, 0, h⟩ ∧
      a.gen.1 = .LOITER ∧ a.gen.2.reach_altitude_offboard = false ∧ a.sent = [] ∧ a.gen.2.smoothed_loc = none ∧ a.gen.2.hover_position = none ∧ a.gen.2.planner.path = [] ∧
      a.gen.2.auto_land = false := ⟨_, rfl, rfl, rfl, rfl, rfl, rfl, rfl, rfl, rfl, rfl, rfl⟩
  obtain ⟨s0, h0, hcmd, hst, hgoal, hmode, hrch, hsent, hloc, hhov, hpath, hland⟩ := hstart
  have htau0 : 0 < tau := by rw [htau]; positivity
  have ht : ∀ i ≤ n, t i - s0.start_time ≤ 5 := by
    intro i hi
    rw [hst, hdt]
    show (i : ℝ) * tau - 0 ≤ 5
    have h1 : (i : ℝ) ≤ (n : ℝ) + 1 := by exact_mod_cast Nat.le_succ_of_le hi
    have h2 : (i : ℝ) * tau ≤ ((n : ℝ) + 1) * tau := mul_le_mul_of_nonneg_right h1 htau0.le
    have h3 : ((n : ℝ) + 1) * tau = 4 := by rw [htau]; field_simp
    linarith
  have hpace : ∀ i, t (i + 1) - t i = tau := fun i => by rw [hdt]; push_cast; ring
  set pre := flownTo3 (goesThere k) t s0 with hpre
  set m := flownMsg3 (goesThere k) t s0 with hm
  let A : ℕ → NodeSt := fun i => ready3 (goesThere k) (t i) (fly3 (goesThere k) t s0 i)
  let S : ℕ → NodeSt := fun i => fly3 (goesThere k) t s0 (i + 1)
  have r : Rounds Q s0 n pre A S t m := fly3_rounds (goesThere k) t s0 hcmd n ht
  have hsnd : ∀ i ≤ n, (fly3 (goesThere k) t s0 (i + 1)).sent = (fly3 (goesThere k) t s0 i).sent ++ [m i] := fun i hi => fly3_sends (goesThere k) t s0 hcmd i (ht i hi)
  have hgA : ∀ i, (A i).goals.goal.val = ⟨0, 0, h⟩ := fun i => by
    show (fly3 (goesThere k) t s0 i).goals.goal.val = _
    rw [(fly3_keeps (goesThere k) t s0 hcmd i).2.2, hgoal]
  have ho : OffboardTo h smoothEvents n pre A := ⟨fun i _ => (flownTo3_newest (goesThere k) t s0 exampleUninit smoothEvents i).2.1, fun i _ => by rw [hgA i]⟩
  have hair : Airborne smoothEvents n pre := fun i _ hi => by rw [ho.state i hi]; exact ⟨rfl, fun h => by cases h⟩
  have hs : Smooths 10 3 smoothEvents n pre := ⟨by norm_num, fun i _ => smooth_rest _ (flownTo3_events (goesThere k) t s0 i)⟩
  have hlast : ∀ i, i ≤ n → (fly3 (goesThere k) t s0 (i + 1)).sent.getLast? = some (m i) := fun i hi => by
    rw [hsnd i hi, List.getLast?_concat]
  have hpo : ∀ i, (newestPose exampleUninit (smoothEvents ++ pre i)).1 = (goesThere k (fly3 (goesThere k) t s0 i)).1 := fun i => by
    rw [hpre, (flownTo3_newest (goesThere k) t s0 exampleUninit smoothEvents i).1]
  have hve : ∀ i, newestVelocity exampleUninit (smoothEvents ++ pre i) = (goesThere k (fly3 (goesThere k) t s0 i)).2 := fun i => by
    rw [hpre, (flownTo3_newest (goesThere k) t s0 exampleUninit smoothEvents i).2.2]
  have hfirst : goesThere k (fly3 (goesThere k) t s0 0) = (⟨0, 0, 0⟩, ⟨0, 0, 0⟩) := by
    show goesThere k s0 = _
    unfold goesThere
    rw [hsent]
    rfl
  have hnext : ∀ i, i ≤ n → goesThere k (fly3 (goesThere k) t s0 (i + 1)) = (numbersOf (m i).position, V3.smul k ((numbersOf (m i).position).minus (fly3 (goesThere k) t s0 (i + 1)).position)) := by
    intro i hi
    exact goesThere_last (hlast i hi)
  have hpos : ∀ i, (fly3 (goesThere k) t s0 (i + 1)).position = (newestPose exampleUninit (smoothEvents ++ pre i)).1 := fun i => by
    rw [hpo i]
    exact (sendStep_keeps (ready3 (goesThere k) (t i) (fly3 (goesThere k) t s0 i)) (t i)).1
  obtain ⟨w1, -, w3⟩ := smooth_plans 3 0 ⟨0, 0, h⟩ (pre n) (flownTo3_events (goesThere k) t s0 n)
  have land : ∀ i ≤ n, (A i).gen.2.auto_land = false := by
    intro i hi
    exact (no_landing exampleUninit _ (smoothEvents ++ pre i) (A i) (by rw [loopM_append', h0]; exact r.upTo i hi) (smooth_plans 3 0 ⟨0, 0, h⟩ (pre i) (flownTo3_events (goesThere k) t s0 i)).2.2).2.2
  have hfin : ∀ i ≤ n, ∃ q, (m i).position = V3.fin q := fun i hi => by
    obtain ⟨q, q1, -⟩ := filter_at r exampleUninit _ smoothEvents h0 hs i hi (land i hi)
    exact ⟨q, q1⟩
  have hthere : ∀ i < n, (m i).position = V3.fin (newestPose exampleUninit (smoothEvents ++ pre (i + 1))).1 := fun i hi => by
    obtain ⟨q, q1⟩ := hfin i hi.le
    rw [hpo (i + 1), hnext i hi.le, q1, numbersOf_fin]
  have here : ∀ i ≤ n, (m i).goto = (newestPose exampleUninit (smoothEvents ++ pre i)).1 → (m i).adapted = (newestPose exampleUninit (smoothEvents ++ pre i)).1 := by
    intro i hi hg
    obtain ⟨w1, -, w3⟩ := smooth_plans 3 0 ⟨0, 0, h⟩ (pre i) (flownTo3_events (goesThere k) t s0 i)
    exact adapted_here (Q := Q) (by norm_num : (2 : ℝ) ≤ 3) (by rw [loopM_append', h0]; exact r.upTo i hi) (r.round i hi) (r.sends i hi) (fun x hx => by cases hx) w1 w3 hg
  -- the first round
  have p0 : (newestPose exampleUninit (smoothEvents ++ pre 0)).1 = ⟨0, 0, 0⟩ := by rw [hpo, hfirst]
  have v0 : newestVelocity exampleUninit (smoothEvents ++ pre 0) = ⟨0, 0, 0⟩ := by rw [hve, hfirst]
  have hfar : ¬ ((⟨0, 0, h⟩ : V3 ℝ).minus ⟨0, 0, 0⟩).norm < 1 := by
    rw [not_lt]
    refine le_trans ?_ (abs_le_norm _).2.2
    unfold V3.minus
    dsimp only
    rw [sub_zero]
    exact hh.trans (le_abs_self _)
  have g0 : (m 0).goto = ⟨0, 0, 0⟩ := by
    rw [(r.cycle exampleUninit _ smoothEvents h0 0 (by omega)).2]
    dsimp only
    rw [show (A 0).gen = (.LOITER, s0.gen.2) from by show s0.gen = _; rw [← hmode]]
    rw [(C37_hover s0.gen.2 _ _).2.1, if_neg]
    · rw [hhov]
      show (if s0.gen.2.state_changed = true then (newestPose exampleUninit (smoothEvents ++ pre 0)).1 else (newestPose exampleUninit (smoothEvents ++ pre 0)).1) = _
      rw [ite_self, p0]
    · rintro ⟨-, hx⟩
      have hx : ((A 0).goals.goal.val.minus (newestPose exampleUninit (smoothEvents ++ pre 0)).1).norm < 1 := hx
      rw [hgA 0, p0] at hx
      exact hfar hx
  have a0 := here 0 (by omega) (by rw [g0, p0])
  rw [p0] at a0
  have q0 : (m 0).position = V3.fin ⟨0, 0, 0⟩ ∧ (S 0).gen.2.smoothed_vel = ⟨0, 0, 0⟩ := by
    obtain ⟨q, q1, -, d1, d2, d3⟩ := filter_at r exampleUninit _ smoothEvents h0 hs 0 (by omega) (land 0 (by omega))
    have hf : filterStart (A 0).gen.2 (newestInput exampleUninit (smoothEvents ++ pre 0) (A 0).goals.goal.val (A 0).goals.is_land (A 0).goals.is_takeoff (A 0).goals.desired_velocity) =
        (⟨0, 0, 0⟩, ⟨0, 0, 0⟩) := by
      unfold filterStart
      rw [show (A 0).gen.2.smoothed_loc = none from hloc]
      show ((newestPose exampleUninit (smoothEvents ++ pre 0)).1, _) = _
      rw [p0]
    rw [hf, a0, v0, ite_self] at d1 d2 d3
    obtain ⟨e1, e2⟩ := d1
    obtain ⟨e3, e4⟩ := d2
    obtain ⟨e5, e6⟩ := d3
    simp only [sub_self, mul_zero, add_zero] at e1 e3 e5
    rw [e1, mul_zero, add_zero] at e2
    rw [e3, mul_zero, add_zero] at e4
    rw [e5, mul_zero, add_zero] at e6
    refine ⟨?_, ?_⟩
    · rw [q1]; congr 1; exact V3.ext e2 e4 e6
    · exact V3.ext e1 e3 e5
  -- the second round
  have p1 : (newestPose exampleUninit (smoothEvents ++ pre 1)).1 = ⟨0, 0, 0⟩ := by
    have := hthere 0 (by omega)
    rw [q0.1] at this
    exact (fin_inj this).symm
  have v1 : newestVelocity exampleUninit (smoothEvents ++ pre 1) = ⟨0, 0, 0⟩ := by
    rw [hve 1, hnext 0 (by omega), hpos 0, p0, q0.1, numbersOf_fin]
    unfold V3.smul V3.minus
    simp
  have m1 : (A 1).gen.1 = .TRY_PATH := by
    rw [(r.flags 0 (by omega)).1, (r.cycle exampleUninit _ smoothEvents h0 0 (by omega)).1, C37_next_state, show (A 0).gen.1 = .LOITER from hmode]
    exact if_neg (by unfold newestInput; simp)
  have path1 : (A 1).gen.2.planner.path = [] := by
    show (S 0).gen.2.planner.path = []
    rw [(r.cycle exampleUninit _ smoothEvents h0 0 (by omega)).1]
    obtain ⟨al, re, sc, hw⟩ := wgCycle_out (A 0).gen (newestInput exampleUninit (smoothEvents ++ pre 0) (A 0).goals.goal.val (A 0).goals.is_land (A 0).goals.is_takeoff (A 0).goals.desired_velocity) (t 0)
    rw [hw]
    dsimp only
    rw [(getPathMsg_frame _ _).planner, (targetOf_more _ _).2.2.2.1, (wgStart_spec _ _ _).1]
    exact hpath
  have g1 : (m 1).goto = ⟨0, 0, 0⟩ := by
    rw [(r.cycle exampleUninit _ smoothEvents h0 1 hn).2]
    dsimp only
    rw [show (A 1).gen = (.TRY_PATH, (A 1).gen.2) from by rw [← m1]]
    have hx := ((C37_path_waypoint (A 1).gen.2 (newestInput exampleUninit (smoothEvents ++ pre 1) (A 1).goals.goal.val (A 1).goals.is_land (A 1).goals.is_takeoff (A 1).goals.desired_velocity) (t 1)).2
      (by
        rintro ⟨-, hx⟩
        have hx : ((A 1).goals.goal.val.minus (newestPose exampleUninit (smoothEvents ++ pre 1)).1).norm < 1 := hx
        rw [hgA 1, p1] at hx
        exact hfar hx)).2.2 path1
    exact hx.trans p1
  have a1 := here 1 hn (by rw [g1, p1])
  rw [p1] at a1
  have q1 : (m 1).position = V3.fin ⟨0, 0, 0⟩ := by
    obtain ⟨q, q', b1, b2, d1, d2, d3⟩ := filter_round r exampleUninit _ smoothEvents h0 hs hair w3 0 hn (by have := hpace 0; linarith)
    rw [q0.1] at b1
    obtain rfl := (fin_inj b1)
    rw [show (m (0 + 1)) = m 1 from rfl, a1, show newestVelocity exampleUninit (smoothEvents ++ pre (0 + 1)) = ⟨0, 0, 0⟩ from v1, ite_self, q0.2] at d1 d2 d3
    obtain ⟨e1, e2⟩ := d1
    obtain ⟨e3, e4⟩ := d2
    obtain ⟨e5, e6⟩ := d3
    simp only [sub_self, mul_zero, add_zero] at e1 e3 e5
    rw [e1, mul_zero, add_zero] at e2
    rw [e3, mul_zero, add_zero] at e4
    rw [e5, mul_zero, add_zero] at e6
    rw [show m 1 = m (0 + 1) from rfl, b2]; congr 1; exact V3.ext e2 e4 e6
  refine ⟨s0, A, S, h0, r, ho, hrch, hs, hair, hpace, fun i hi => ⟨hthere i hi, ?_⟩, v0, q0.1, q1⟩
  rw [hve (i + 1), hnext i hi.le, hpos i, ← hpre]
  obtain ⟨q, e⟩ := hfin i hi.le
  have := hthere i hi
  rw [e] at this
  rw [e, numbersOf_fin, fin_inj this]

/-- The hypotheses of `C116_bounded` are met, for every large number of rounds: the vehicle goes to each published position and never reports a velocity. The published position moves up with
at most 2.6 m/s. -/
example (Q : PriorityQueue (Candidate ℝ) Candidate.lt) (n : ℕ) (hn : 30 ≤ n) : ∃ s0 pre A S t m, loopM (nodeStep Q) (nodeInit exampleUninit (launchTo ⟨0, 0, 50⟩)) smoothEvents = some s0 ∧
    Rounds Q s0 n pre A S t m ∧ Smooths 10 3 smoothEvents n pre ∧ ∀ i < n, ∃ q q', (m i).position = V3.fin q ∧ (m (i + 1)).position = V3.fin q' ∧
      |q'.z - q.z| ≤ (t (i + 1) - t i) * (13 / 5) := by
  let t : ℕ → ℝ := fun i : ℕ => (i : ℝ) * (4 / ((n : ℝ) + 1))
  obtain ⟨s0, A, S, h0, r, ho, hrch, hs, hair, hpace, hthere, v0, q0, q1⟩ := smooth_flight Q n (by omega) 50 (by norm_num) 0 t _ rfl rfl
  obtain ⟨w1, -, w3⟩ := smooth_plans 3 0 ⟨0, 0, 50⟩ (flownTo3 (goesThere 0) t s0 n) (flownTo3_events (goesThere 0) t s0 n)
  have hn' : (30 : ℝ) ≤ n := by exact_mod_cast hn
  have htau : 4 / ((n : ℝ) + 1) ≤ 4 / 31 := by gcongr; linarith
  have htau0 : 0 < 4 / ((n : ℝ) + 1) := by positivity
  have s10 : Real.sqrt 10 ≤ 16 / 5 := Real.sqrt_le_iff.mpr ⟨by norm_num, by norm_num⟩
  have s3 : Real.sqrt 3 ≤ 26 / 15 := Real.sqrt_le_iff.mpr ⟨by norm_num, by norm_num⟩
  have s3' : Real.sqrt 3 ≤ 16 / 5 := s3.trans (by norm_num)
  have hfast : ∀ x, 0 ≤ x → x ≤ 16 / 5 → 2 * x * (4 / ((n : ℝ) + 1)) ≤ 1 := by
    intro x h1 h2
    have : 2 * x * (4 / ((n : ℝ) + 1)) ≤ 2 * (16 / 5) * (4 / 31) := mul_le_mul (by linarith) htau htau0.le (by norm_num)
    linarith
  refine ⟨s0, _, A, S, t, _, h0, r, hs, fun i hi => ?_⟩
  obtain ⟨q, q', b1, b2, -, -, b5⟩ := C116_bounded r exampleUninit _ smoothEvents h0 10 3 0 0 3 hs hair w3 (fun i _ => by have := hpace i; linarith)
    (fun i _ => by rw [hpace i]; exact ⟨hfast _ (Real.sqrt_nonneg _) s10, hfast _ (Real.sqrt_nonneg _) s3'⟩) (by norm_num) (fun x hx => by cases hx) w1
    (fun i hi => by
      have : newestVelocity exampleUninit (smoothEvents ++ flownTo3 (goesThere 0) t s0 i) = ⟨0, 0, 0⟩ := by
        rcases i with _ | i
        · exact v0
        · rw [(hthere i (by omega)).2]; unfold V3.smul; simp
      rw [this]
      refine ⟨?_, ?_, ?_⟩ <;> simp)
    (fun i hi => ⟨_, (hthere i hi).1, by refine ⟨?_, ?_, ?_⟩ <;> simp⟩)
    0 ⟨_, _, q0, q1, by
      have := hpace 0
      have h1 : 0 ≤ t (0 + 1) - t 0 := by rw [this]; exact htau0.le
      have h2 : ∀ x : ℝ, 0 ≤ x → 0 ≤ (t (0 + 1) - t 0) * (0 + x / 2 * (0 + 3)) := fun x hx => mul_nonneg h1 (by linarith)
      refine ⟨?_, ?_, ?_⟩
      · simpa using h2 _ (Real.sqrt_nonneg 10)
      · simpa using h2 _ (Real.sqrt_nonneg 10)
      · simpa using h2 _ (Real.sqrt_nonneg 3)⟩ i (by omega) hi
  refine ⟨q, q', b1, b2, b5.trans (mul_le_mul_of_nonneg_left ?_ (by rw [hpace i]; exact htau0.le))⟩
  linarith

/-- **C116, finding: a witness.** With the default smoothing and a goal 1000 m above, a vehicle that does exactly as it is told is asked for more than 5 m/s within the first 4 s - although no plan was ever made, so
that the speed asked for is at most 2 m/s. -/
theorem C116_ever_faster_witness (Q : PriorityQueue (Candidate ℝ) Candidate.lt) : ∃ s0 pre A S t m,
    loopM (nodeStep Q) (nodeInit exampleUninit (launchTo ⟨0, 0, 1000⟩)) smoothEvents = some s0 ∧ Rounds Q s0 8 pre A S t m ∧ OffboardTo 1000 smoothEvents 8 pre A ∧
    Smooths 10 3 smoothEvents 8 pre ∧ Follows exampleUninit smoothEvents 8 pre t m ∧ PlansWithin 2 (launchTo ⟨0, 0, 1000⟩) (smoothEvents ++ pre 8) ∧
    ∃ i < 7, ∃ q q', (m i).position = V3.fin q ∧ (m (i + 1)).position = V3.fin q' ∧ 5 * (t (i + 1) - t i) < q'.z - q.z := by
  let t : ℕ → ℝ := fun i : ℕ => (i : ℝ) * (4 / (((8 : ℕ) : ℝ) + 1))
  obtain ⟨s0, A, S, h0, r, ho, hrch, hs, hair, hpace, hthere, v0, q0, q1⟩ := smooth_flight Q 8 (by norm_num) 1000 (by norm_num) (9 / 4) t _ rfl rfl
  have hpace : ∀ i, t (i + 1) - t i = 4 / 9 := fun i => by rw [hpace i]; norm_num
  obtain ⟨w1, w2, w3⟩ := smooth_plans 2 2 ⟨0, 0, 1000⟩ (flownTo3 (goesThere (9 / 4)) t s0 8) (flownTo3_events (goesThere (9 / 4)) t s0 8)
  have fl : Follows exampleUninit smoothEvents 8 (flownTo3 (goesThere (9 / 4)) t s0) t (flownMsg3 (goesThere (9 / 4)) t s0) := by
    refine ⟨fun i hi => (hthere i hi).1, fun i hi => ?_⟩
    rw [hpace i, (hthere (i + 1) (by omega)).2]
    unfold V3.plus V3.smul V3.minus
    ext
    · dsimp only; ring
    · dsimp only; ring
    · dsimp only; ring
  refine ⟨s0, _, A, S, t, _, h0, r, ho, hs, fl, w1, ?_⟩
  let p : ℕ → V3 ℝ := fun i => (newestPose exampleUninit (smoothEvents ++ flownTo3 (goesThere (9 / 4)) t s0 i)).1
  by_contra hno
  push Not at hno
  have hstep : ∀ i < 7, (p (i + 2)).z - (p (i + 1)).z ≤ 5 * (4 / 9) := fun i hi => by
    have := hno i hi _ _ (hthere i (by omega)).1 (hthere (i + 1) (by omega)).1
    rw [hpace i] at this
    exact this
  have p1 : (p 1).z = 0 := by
    have := (hthere 0 (by norm_num)).1
    rw [q0] at this
    rw [show p 1 = ⟨0, 0, 0⟩ from (fin_inj this).symm]
  have p2 : (p 2).z = 0 := by
    have := (hthere 1 (by norm_num)).1
    rw [q1] at this
    rw [show p 2 = ⟨0, 0, 0⟩ from (fin_inj this).symm]
  have p0 : (p 0).z = 0 := by
    show (newestPose exampleUninit (smoothEvents ++ flownTo3 (goesThere (9 / 4)) t s0 0)).1.z = 0
    rw [(flownTo3_newest (goesThere (9 / 4)) t s0 exampleUninit smoothEvents 0).1]
    have : s0.sent = [] := by
      obtain rfl := Option.some.inj h0
      rfl
    show (goesThere (9 / 4) s0).1.z = 0
    unfold goesThere
    rw [this]
    rfl
  have hlow : ∀ j ≤ 7, (p j).z ≤ 20 := by
    intro j hj
    have e0 := hstep 0 (by norm_num)
    have e1 := hstep 1 (by norm_num)
    have e2 := hstep 2 (by norm_num)
    have e3 := hstep 3 (by norm_num)
    have e4 := hstep 4 (by norm_num)
    have e5 := hstep 5 (by norm_num)
    have e6 := hstep 6 (by norm_num)
    simp only [Nat.reduceAdd] at e0 e1 e2 e3 e4 e5 e6
    interval_cases j <;> linarith
  have main := C116_ever_faster_violated r exampleUninit _ smoothEvents h0 ho hrch w3 10 3 hs 2 2 (4 / 9) le_rfl (by norm_num) le_rfl (by norm_num) (fun x hx => by cases hx) w1 w2
    (fun i _ => (hpace i).ge) fl (fun _ => by show (p 1).z ≤ (p 2).z; rw [p1, p2]) 6 (by norm_num) (fun j hj => by
      have : (p j).z ≤ 20 := hlow j hj
      show (p j).z + 2 + 1 / 10 ≤ 1000
      linarith)
  dsimp only at main
  have e := hstep 6 (by norm_num)
  have main : (t (6 + 1) - t 6) * (((6 : ℕ) : ℝ) * (4 / 9 * 3 * (4 / 9 / (9 / 10 + 4 / 9)) * 2)) ≤ (p (6 + 2)).z - (p (6 + 1)).z := main
  rw [hpace 6] at main
  norm_num at main e
  linarith

end Avoidance
