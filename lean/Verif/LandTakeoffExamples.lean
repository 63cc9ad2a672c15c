import Verif.LandTakeoffProps
import Verif.ClimbExamples

/-!
# Landings and take-offs in a closed loop with the local planner node: the hypotheses of C115 are met
-/

namespace Avoidance
variable {Q : PriorityQueue (Candidate ℝ) Candidate.lt}

/-! ## A vehicle that before every setpoint reports a pose and the mode of the autopilot -/

noncomputable def ready2 (pol : ℕ → NodeSt → V3 ℝ × String) (i : ℕ) (t : ℝ) (s : NodeSt) : NodeSt :=
  { s with armed := true, nav := navStateOf (pol i s).2, position := (pol i s).1, orientation := headed 0, position_received := true, cmd := some t }

noncomputable def fly2 (pol : ℕ → NodeSt → V3 ℝ × String) (t : ℕ → ℝ) (s : NodeSt) : ℕ → NodeSt
  | 0 => s
  | i + 1 => sendStep (ready2 pol i (t i) (fly2 pol t s i)) (t i)

noncomputable def flown2 (pol : ℕ → NodeSt → V3 ℝ × String) (t : ℕ → ℝ) (s : NodeSt) : ℕ → List NodeEvent
  | 0 => []
  | i + 1 => flown2 pol t s i ++ [.state true (pol i (fly2 pol t s i)).2, .pose (pol i (fly2 pol t s i)).1 (headed 0), .timer (t i), .send (t i)]

section
variable (pol : ℕ → NodeSt → V3 ℝ × String) (t : ℕ → ℝ) (s : NodeSt)

noncomputable def flownTo2 (i : ℕ) : List NodeEvent :=
  flown2 pol t s i ++ [.state true (pol i (fly2 pol t s i)).2, .pose (pol i (fly2 pol t s i)).1 (headed 0), .timer (t i)]

noncomputable def flownMsg2 (i : ℕ) : SentMsg :=
  messageOf (wgCycle (fly2 pol t s i).gen (inputOf (ready2 pol i (t i) (fly2 pol t s i)) false) (t i)).2 (t i)

theorem ready2_run (hc : s.cmd = none) (i : ℕ) (t : ℝ) : loopM (nodeStep Q) s [.state true (pol i s).2, .pose (pol i s).1 (headed 0), .timer t] = some (ready2 pol i t s) := by
  show (nodeStep Q { s with armed := true, nav := navStateOf (pol i s).2, position := (pol i s).1, orientation := headed 0, position_received := true } (.timer t)).bind (fun x => some x) = _
  rw [show nodeStep Q { s with armed := true, nav := navStateOf (pol i s).2, position := (pol i s).1, orientation := headed 0, position_received := true } (.timer t) =
    some { s with armed := true, nav := navStateOf (pol i s).2, position := (pol i s).1, orientation := headed 0, position_received := true, cmd := some t } from if_pos hc]
  rfl

theorem fly2_keeps (hc : s.cmd = none) : ∀ i, (fly2 pol t s i).cmd = none ∧ (fly2 pol t s i).start_time = s.start_time ∧ (fly2 pol t s i).goals = s.goals := by
  intro i
  induction i with
  | zero => exact ⟨hc, rfl, rfl⟩
  | succ i ih =>
    obtain ⟨k1, k2, k3⟩ := ih
    obtain ⟨-, -, -, -, q5, q6, -, -, q9, -, q11, -, -, q14, -⟩ := sendStep_keeps (ready2 pol i (t i) (fly2 pol t s i)) (t i)
    exact ⟨q14, q11.trans k2, q6.trans k3⟩

theorem ready2_send (i : ℕ) (t : ℝ) : nodeStep Q (ready2 pol i t s) (.send t) = some (sendStep (ready2 pol i t s) t) := by
  have hyes : ∀ x : NodeSt, x.cmd.isSome = true ∧ x.position_received = true → nodeStep Q x (.send t) = some (sendStep x t) := fun x hx => if_pos hx
  exact hyes _ ⟨rfl, rfl⟩

theorem fly2_run (hc : s.cmd = none) : ∀ i, loopM (nodeStep Q) s (flown2 pol t s i) = some (fly2 pol t s i) := by
  intro i
  induction i with
  | zero => rfl
  | succ i ih =>
    show loopM (nodeStep Q) s (flown2 pol t s i ++ ([.state true (pol i (fly2 pol t s i)).2, .pose (pol i (fly2 pol t s i)).1 (headed 0), .timer (t i)] ++ [.send (t i)])) = _
    rw [loopM_append', ih]
    show loopM (nodeStep Q) (fly2 pol t s i) _ = _
    rw [loopM_append', ready2_run pol _ (fly2_keeps pol t s hc i).1]
    show loopM (nodeStep Q) (ready2 pol i (t i) (fly2 pol t s i)) [.send (t i)] = _
    rw [loopM_one, ready2_send]
    rfl

theorem fly2_sends (hc : s.cmd = none) (i : ℕ) (ht : t i - s.start_time ≤ 5) :
    (fly2 pol t s (i + 1)).sent = (fly2 pol t s i).sent ++ [flownMsg2 pol t s i] := by
  obtain ⟨a1, -⟩ := sendStep_active (ready2 pol i (t i) (fly2 pol t s i)) (t i)
  obtain ⟨b1, b2, -⟩ := a1 (Or.inr (by
    show t i - (fly2 pol t s i).start_time ≤ 5
    rw [(fly2_keeps pol t s hc i).2.1]; exact ht))
  exact b2

theorem fly2_rounds (hc : s.cmd = none) (n : ℕ) (ht : ∀ i ≤ n, t i - s.start_time ≤ 5) :
    Rounds Q s n (flownTo2 pol t s) (fun i => ready2 pol i (t i) (fly2 pol t s i)) (fun i => fly2 pol t s (i + 1)) t (flownMsg2 pol t s) where
  upTo := fun i _ => by
    unfold flownTo2
    rw [loopM_append', fly2_run pol t s hc]
    exact ready2_run pol _ (fly2_keeps pol t s hc _).1 _ _
  round := fun i _ => ready2_send pol _ _ _
  sends := fun i hi => fly2_sends pol t s hc i (ht i hi)
  next := fun i _ => ⟨[.state true (pol (i + 1) (fly2 pol t s (i + 1))).2, .pose (pol (i + 1) (fly2 pol t s (i + 1))).1 (headed 0), .timer (t (i + 1))], by
    unfold flownTo2
    show (flown2 pol t s i ++ [.state true (pol i (fly2 pol t s i)).2, .pose (pol i (fly2 pol t s i)).1 (headed 0), .timer (t i), .send (t i)]) ++ _ = _
    simp⟩
  only := fun i _ => rfl

theorem flown2_events : ∀ i, ∀ e ∈ flown2 pol t s i, (∃ m, e = .state true m) ∨ (∃ p q, e = .pose p q) ∨ (∃ x, e = .timer x) ∨ ∃ x, e = .send x := by
  intro i
  induction i with
  | zero => intro e he; cases he
  | succ i ih =>
    intro e he
    rcases List.mem_append.mp he with he | he
    · exact ih e he
    · simp at he
      rcases he with rfl | rfl | rfl | rfl
      · exact Or.inl ⟨_, rfl⟩
      · exact Or.inr (Or.inl ⟨_, _, rfl⟩)
      · exact Or.inr (Or.inr (Or.inl ⟨_, rfl⟩))
      · exact Or.inr (Or.inr (Or.inr ⟨_, rfl⟩))

theorem flownTo2_events (i : ℕ) : ∀ e ∈ flownTo2 pol t s i, (∃ m, e = .state true m) ∨ (∃ p q, e = .pose p q) ∨ (∃ x, e = .timer x) ∨ ∃ x, e = .send x := by
  intro e he
  rcases List.mem_append.mp he with he | he
  · exact flown2_events pol t s _ e he
  · simp at he
    rcases he with rfl | rfl | rfl
    · exact Or.inl ⟨_, rfl⟩
    · exact Or.inr (Or.inl ⟨_, _, rfl⟩)
    · exact Or.inr (Or.inr (Or.inl ⟨_, rfl⟩))

theorem flownTo2_newest (u : Uninit) (es : List NodeEvent) (i : ℕ) : newestPose u (es ++ flownTo2 pol t s i) = ((pol i (fly2 pol t s i)).1, headed 0) ∧
    newestState (es ++ flownTo2 pol t s i) = (true, navStateOf (pol i (fly2 pol t s i)).2) := by
  unfold flownTo2
  rw [show es ++ (flown2 pol t s i ++ [NodeEvent.state true (pol i (fly2 pol t s i)).2, .pose (pol i (fly2 pol t s i)).1 (headed 0), .timer (t i)]) =
    (((es ++ flown2 pol t s i) ++ [.state true (pol i (fly2 pol t s i)).2]) ++ [.pose (pol i (fly2 pol t s i)).1 (headed 0)]) ++ [.timer (t i)] by simp, newestPose_snoc, newestPose_snoc,
    newestState_snoc, newestState_snoc, newestState_snoc]
  exact ⟨rfl, rfl⟩

end

/-- The node is configured without smoothing. -/
noncomputable def configEvents : List NodeEvent := [.config (exampleTree 1) 0 0 20]

theorem config_rest (rest : List NodeEvent) (hr : ∀ e ∈ rest, (∃ m, e = .state true m) ∨ (∃ p q, e = .pose p q) ∨ (∃ x, e = .timer x) ∨ ∃ x, e = NodeEvent.send x) :
    newestVelocity exampleUninit (configEvents ++ rest) = ⟨0, 0, 0⟩ ∧ newestSmoothing (configEvents ++ rest) = (0, 0) := by
  induction rest using List.reverseRecOn with
  | nil => exact ⟨rfl, rfl⟩
  | append_singleton rest e ih =>
    rw [← List.append_assoc, newestVelocity_snoc, newestSmoothing_snoc]
    have := ih (fun x hx => hr x (List.mem_append_left _ hx))
    rcases hr e (by simp) with ⟨m, rfl⟩ | ⟨p, q, rfl⟩ | ⟨x, rfl⟩ | ⟨x, rfl⟩ <;> exact this

theorem config_plans (V c : ℝ) (g : V3 ℝ) (rest : List NodeEvent) (hr : ∀ e ∈ rest, (∃ m, e = .state true m) ∨ (∃ p q, e = .pose p q) ∨ (∃ x, e = .timer x) ∨ ∃ x, e = NodeEvent.send x) :
    PlansWithin V (launchTo g) (configEvents ++ rest) ∧ PlansFrom c (launchTo g) (configEvents ++ rest) := by
  have hno : ∀ pre f t post, configEvents ++ rest ≠ pre ++ .planStart f t :: post := by
    intro pre f t post e
    have hm : NodeEvent.planStart f t ∈ configEvents ++ rest := by rw [e]; simp
    rcases List.mem_append.mp hm with hm | hm
    · simp [configEvents] at hm
    · rcases hr _ hm with ⟨m, h⟩ | ⟨p, q, h⟩ | ⟨x, h⟩ | ⟨x, h⟩ <;> cases h
  exact ⟨fun pre f t post e => absurd e (hno _ _ _ _), fun pre f t post e => absurd e (hno _ _ _ _)⟩

/-- Flights of every length, with any poses and modes, in the first 4 s. -/
theorem free_flight (Q : PriorityQueue (Candidate ℝ) Candidate.lt) (n : ℕ) (g : V3 ℝ) (pol : ℕ → NodeSt → V3 ℝ × String) (t : ℕ → ℝ) (tau : ℝ) (htau : tau = 4 / ((n : ℝ) + 1))
    (hdt : t = fun i : ℕ => (i : ℝ) * tau) :
    ∃ s0, loopM (nodeStep Q) (nodeInit exampleUninit (launchTo g)) configEvents = some s0 ∧
      Rounds Q s0 n (flownTo2 pol t s0) (fun i => ready2 pol i (t i) (fly2 pol t s0 i)) (fun i => fly2 pol t s0 (i + 1)) t (flownMsg2 pol t s0) ∧
      s0.gen.1 = .LOITER ∧ (∀ i, (fly2 pol t s0 i).goals.goal.val = g ∧ (fly2 pol t s0 i).goals.is_land = false ∧ (fly2 pol t s0 i).goals.is_takeoff = false) ∧
      (∀ i, (newestSmoothing (configEvents ++ flownTo2 pol t s0 i)).1 < 1 / 100) ∧ (∀ i, ¬ Fast exampleUninit configEvents (flownTo2 pol t s0) i) ∧
      (∀ i, t (i + 1) - t i = tau) ∧ (∀ i ≤ n, (fly2 pol t s0 (i + 1)).sent = (fly2 pol t s0 i).sent ++ [flownMsg2 pol t s0 i]) ∧
      (∀ i, (fly2 pol t s0 (i + 1)).position = (pol i (fly2 pol t s0 i)).1) ∧ s0.gen.2.reach_altitude_offboard = false := by
  have hstart : ∃ a, loopM (nodeStep Q) (nodeInit exampleUninit (launchTo g)) configEvents = some a ∧ a.cmd = none ∧ a.start_time = 0 ∧ a.goals.goal.val = g ∧
      a.goals.is_land = false ∧ a.goals.is_takeoff = false ∧ a.gen.1 = .LOITER ∧ a.gen.2.reach_altitude_offboard = false := ⟨_, rfl, rfl, rfl, rfl, rfl, rfl, rfl, rfl⟩
  obtain ⟨s0, h0, hcmd, hst, hgoal, hland, htk, hmode, hrch⟩ := hstart
  have htau0 : 0 < tau := by rw [htau]; positivity
  have ht : ∀ i ≤ n, t i - s0.start_time ≤ 5 := by
    intro i hi
    rw [hst, hdt]
    show (i : ℝ) * tau - 0 ≤ 5
    have h1 : (i : ℝ) ≤ (n : ℝ) + 1 := by exact_mod_cast Nat.le_succ_of_le hi
    have h2 : (i : ℝ) * tau ≤ ((n : ℝ) + 1) * tau := mul_le_mul_of_nonneg_right h1 htau0.le
    have h3 : ((n : ℝ) + 1) * tau = 4 := by rw [htau]; field_simp
    linarith
  refine ⟨s0, h0, fly2_rounds pol t s0 hcmd n ht, hmode, fun i => ?_, fun i => ?_, fun i => ?_, fun i => ?_, fun i hi => fly2_sends pol t s0 hcmd i (ht i hi), fun i => ?_, hrch⟩
  · rw [(fly2_keeps pol t s0 hcmd i).2.2]; exact ⟨hgoal, hland, htk⟩
  · rw [(config_rest _ (flownTo2_events pol t s0 i)).2]; norm_num
  · unfold Fast
    rw [(config_rest _ (flownTo2_events pol t s0 i)).1]
    unfold V3.normXY
    norm_num
  · rw [hdt]; push_cast; ring
  · exact (sendStep_keeps (ready2 pol i (t i) (fly2 pol t s0 i)) (t i)).1

/-- Up to round 2 the vehicle is at `p0`; then it flies the part `f` of the way to each setpoint. -/
noncomputable def fliesBy (p0 : V3 ℝ) (md : String) (f : ℝ) (i : ℕ) (s : NodeSt) : V3 ℝ × String :=
  (match s.sent.getLast? with
    | some m => if 3 ≤ i then s.position.plus (V3.smul f ((numbersOf m.position).minus s.position)) else p0
    | none => p0, md)

theorem fliesBy_early {p0 : V3 ℝ} {md : String} {f : ℝ} {i : ℕ} {s : NodeSt} (h : i < 3) : (fliesBy p0 md f i s).1 = p0 := by
  unfold fliesBy
  dsimp only
  split
  · rw [if_neg (by omega)]
  · rfl

theorem fliesBy_late {p0 : V3 ℝ} {md : String} {f : ℝ} {i : ℕ} {s : NodeSt} {m : SentMsg} (h : s.sent.getLast? = some m) (h3 : 3 ≤ i) :
    (fliesBy p0 md f i s).1 = s.position.plus (V3.smul f ((numbersOf m.position).minus s.position)) := by
  unfold fliesBy
  rw [h]
  dsimp only
  rw [if_pos h3]

/-- That is flying towards the setpoints. -/
theorem fliesBy_towards {n : ℕ} {p0 : V3 ℝ} {md : String} {f : ℝ} (hf0 : 0 ≤ f) (hf1 : f ≤ 1) {t : ℕ → ℝ} {s0 : NodeSt}
    (hsnd : ∀ i ≤ n, (fly2 (fliesBy p0 md f) t s0 (i + 1)).sent = (fly2 (fliesBy p0 md f) t s0 i).sent ++ [flownMsg2 (fliesBy p0 md f) t s0 i])
    (hpos : ∀ i, (fly2 (fliesBy p0 md f) t s0 (i + 1)).position = (fliesBy p0 md f i (fly2 (fliesBy p0 md f) t s0 i)).1)
    (hfin : ∀ i, 2 ≤ i → i ≤ n → ∃ q, (flownMsg2 (fliesBy p0 md f) t s0 i).position = V3.fin q) (u : Uninit) (es : List NodeEvent) :
    FliesTowards u es n (flownTo2 (fliesBy p0 md f) t s0) (flownMsg2 (fliesBy p0 md f) t s0) (fun _ => f) := by
  refine ⟨fun _ _ _ => ⟨hf0, hf1⟩, fun i h2 hi => ?_⟩
  obtain ⟨q, hq⟩ := hfin i h2 hi.le
  refine ⟨q, hq, ?_⟩
  rw [(flownTo2_newest _ t s0 u es (i + 1)).1, (flownTo2_newest _ t s0 u es i).1]
  dsimp only
  have hl : (fly2 (fliesBy p0 md f) t s0 (i + 1)).sent.getLast? = some (flownMsg2 (fliesBy p0 md f) t s0 i) := by
    rw [hsnd i hi.le, List.getLast?_concat]
  rw [fliesBy_late hl (by omega), hpos i, hq]
  rfl

/-- The hypotheses of `C115_comes_down` (and of `C115_descent`) are met, for every number of rounds: the autopilot lands from 20 m, the vehicle flies half of the way to each setpoint. -/
example (Q : PriorityQueue (Candidate ℝ) Candidate.lt) (n : ℕ) : ∃ s0 pre A S t m, loopM (nodeStep Q) (nodeInit exampleUninit (launchTo ⟨5, 0, 0⟩)) configEvents = some s0 ∧
    Rounds Q s0 n pre A S t m ∧ (∀ i ≤ n, Lands configEvents pre A i) ∧
    ∀ i, 2 ≤ i → i ≤ n → ((⟨0, 0, 0⟩ : V3 ℝ).minus (newestPose exampleUninit (configEvents ++ pre i)).1).norm ≤ (1 - 1 / 2) ^ (i - 2) * ((⟨0, 0, 0⟩ : V3 ℝ).minus ⟨0, 0, 20⟩).norm := by
  let t : ℕ → ℝ := fun i : ℕ => (i : ℝ) * (4 / ((n : ℝ) + 1))
  let pol := fliesBy ⟨0, 0, 20⟩ "AUTO.LAND" (1 / 2)
  obtain ⟨s0, h0, r, hmode, hg, hsm, hslow, hpace, hsnd, hpos, hrch⟩ := free_flight Q n ⟨5, 0, 0⟩ pol t _ rfl rfl
  have hl : ∀ i ≤ n, Lands configEvents (flownTo2 pol t s0) (fun i => ready2 pol i (t i) (fly2 pol t s0 i)) i := by
    intro i _
    refine Or.inl ?_
    rw [(flownTo2_newest pol t s0 exampleUninit configEvents i).2]
    rfl
  have hn : (ready2 pol 0 (t 0) (fly2 pol t s0 0)).gen.1 ≠ .ALTITUDE_CHANGE := by
    show s0.gen.1 ≠ _
    rw [hmode]; intro h; cases h
  obtain ⟨k, k1, k2, kd⟩ := C115_descent r exampleUninit _ configEvents h0 hl hn
  have fl := fliesBy_towards (n := n) (by norm_num) (by norm_num) hsnd hpos (fun i h2 hi => ⟨_, ((kd i (by omega) hi).2 (hslow i) k le_rfl (by omega) (Or.inl rfl) (fun j _ _ => hslow j)).1⟩)
    exampleUninit configEvents
  obtain ⟨k', k1', k2', main⟩ := C115_comes_down r exampleUninit _ configEvents h0 hl hn 0 (fun i _ => by
    show (fly2 pol t s0 i).goals.goal.val.z = 0
    rw [(hg i).1]) (fun i _ _ => hslow i) (1 / 2) (by norm_num) _ fl (fun _ _ _ => le_rfl)
  refine ⟨s0, _, _, _, _, _, h0, r, hl, fun i h2 hi => ?_⟩
  have hm := (main i h2 hi).2
  have e : ∀ j < 3, (newestPose exampleUninit (configEvents ++ flownTo2 pol t s0 j)).1 = ⟨0, 0, 20⟩ := by
    intro j hj
    rw [(flownTo2_newest pol t s0 exampleUninit configEvents j).1]
    exact fliesBy_early (md := "AUTO.LAND") hj
  have hm : (((⟨(newestPose exampleUninit (configEvents ++ flownTo2 pol t s0 k')).1.x, (newestPose exampleUninit (configEvents ++ flownTo2 pol t s0 k')).1.y, 0⟩ : V3 ℝ)).minus
    (newestPose exampleUninit (configEvents ++ flownTo2 pol t s0 i)).1).norm ≤ (1 - 1 / 2) ^ (i - 2) *
    ((⟨(newestPose exampleUninit (configEvents ++ flownTo2 pol t s0 k')).1.x, (newestPose exampleUninit (configEvents ++ flownTo2 pol t s0 k')).1.y, 0⟩ : V3 ℝ).minus
      (newestPose exampleUninit (configEvents ++ flownTo2 pol t s0 2)).1).norm := hm
  rw [e k' (by omega), e 2 (by omega)] at hm
  exact hm

/-- The hypotheses of `C115_takes_off_partial` are met, for every number of rounds: the autopilot takes off from the ground to 20 m, the vehicle flies half of the way to each setpoint. -/
example (Q : PriorityQueue (Candidate ℝ) Candidate.lt) (n : ℕ) : ∃ s0 pre A S t m, loopM (nodeStep Q) (nodeInit exampleUninit (launchTo ⟨0, 0, 20⟩)) configEvents = some s0 ∧
    Rounds Q s0 n pre A S t m ∧ (∀ i ≤ n, TakesOff configEvents pre A i) ∧ (newestPose exampleUninit (configEvents ++ pre 2)).1 = ⟨0, 0, 0⟩ ∧
    ∀ eps, 0 < eps → eps ≤ 1 / 10 → 2 ≤ n → (20 : ℝ) ≤ ((n : ℝ) - 2) * (1 / 2 * (4 / ((n : ℝ) + 1) / (9 / 10 + 4 / ((n : ℝ) + 1)) * min 2 (eps ^ 2))) →
      ∃ i ≤ n, 20 - eps ≤ (newestPose exampleUninit (configEvents ++ pre i)).1.z := by
  let t : ℕ → ℝ := fun i : ℕ => (i : ℝ) * (4 / ((n : ℝ) + 1))
  let pol := fliesBy ⟨0, 0, 0⟩ "AUTO.TAKEOFF" (1 / 2)
  obtain ⟨s0, h0, r, hmode, hg, hsm, hslow, hpace, hsnd, hpos, hrch⟩ := free_flight Q n ⟨0, 0, 20⟩ pol t _ rfl rfl
  have hto : ∀ i ≤ n, TakesOff configEvents (flownTo2 pol t s0) (fun i => ready2 pol i (t i) (fly2 pol t s0 i)) i := by
    intro i _
    refine Or.inl ?_
    rw [(flownTo2_newest pol t s0 exampleUninit configEvents i).2]
    rfl
  have hn : (ready2 pol 0 (t 0) (fly2 pol t s0 0)).gen.1 ≠ .ALTITUDE_CHANGE := by
    show s0.gen.1 ≠ _
    rw [hmode]; intro h; cases h
  obtain ⟨w1, w2⟩ := config_plans 3 2 ⟨0, 0, 20⟩ (flownTo2 pol t s0 n) (flownTo2_events pol t s0 n)
  obtain ⟨k, k1, k2, kr⟩ := takeoff_round r exampleUninit _ configEvents h0 hto hn 3 2 (by norm_num) (by norm_num) le_rfl (fun x hx => by cases hx) w1 w2 (fun i _ => hsm i) (fun i _ _ => hslow i)
  have fl := fliesBy_towards (n := n) (by norm_num) (by norm_num) hsnd hpos (fun i h2 hi => ⟨_, (kr i h2 hi).2.2.2.2.2.2⟩) exampleUninit configEvents
  have e : ∀ j < 3, (newestPose exampleUninit (configEvents ++ flownTo2 pol t s0 j)).1 = ⟨0, 0, 0⟩ := by
    intro j hj
    rw [(flownTo2_newest pol t s0 exampleUninit configEvents j).1]
    exact fliesBy_early (md := "AUTO.TAKEOFF") hj
  obtain ⟨-, main⟩ := C115_takes_off_partial r exampleUninit _ configEvents h0 hto hn 3 2 (4 / ((n : ℝ) + 1)) (1 / 2) (by norm_num) (by norm_num) le_rfl (by positivity) (by norm_num)
    (fun x hx => by cases hx) w1 w2 (fun i _ => hsm i) (fun i _ _ => hslow i) (fun i _ => (hpace i).ge) _ fl (fun _ _ _ => le_rfl) ⟨0, 0, 20⟩ (fun i _ => (hg i).1)
    (fun i h1 h2 => by rw [e i (by omega)]; exact ⟨rfl, rfl⟩)
  refine ⟨s0, _, _, _, _, _, h0, r, hto, e 2 (by omega), fun eps he0 he1 hn2 hlen => main eps he0 he1 hn2 ?_⟩
  show (20 : ℝ) - (newestPose exampleUninit (configEvents ++ flownTo2 pol t s0 2)).1.z ≤ _
  rw [e 2 (by omega)]
  simpa using hlen

/-- **C115, finding: a witness.** The autopilot takes off; the goal is half a metre higher than the vehicle, 10 m to the east. The vehicle is sent more than a metre up. -/
theorem C115_overshoot_witness (Q : PriorityQueue (Candidate ℝ) Candidate.lt) : ∃ s0 pre A S t m,
    loopM (nodeStep Q) (nodeInit exampleUninit (launchTo ⟨10, 0, 1 / 2⟩)) configEvents = some s0 ∧ Rounds Q s0 2 pre A S t m ∧ (∀ i ≤ 2, TakesOff configEvents pre A i) ∧
    (A 2).goals.goal.val = ⟨10, 0, 1 / 2⟩ ∧ (newestPose exampleUninit (configEvents ++ pre 2)).1 = ⟨0, 0, 0⟩ ∧ ∃ w, 1 < w ∧ (m 2).position = V3.fin ⟨0, 0, w⟩ := by
  let t : ℕ → ℝ := fun i : ℕ => (i : ℝ) * (4 / (((2 : ℕ) : ℝ) + 1))
  let pol : ℕ → NodeSt → V3 ℝ × String := fun _ _ => (⟨0, 0, 0⟩, "AUTO.TAKEOFF")
  obtain ⟨s0, h0, r, hmode, hg, hsm, hslow, hpace, hsnd, hpos, hrch⟩ := free_flight Q 2 ⟨10, 0, 1 / 2⟩ pol t _ rfl rfl
  have hto : ∀ i ≤ 2, TakesOff configEvents (flownTo2 pol t s0) (fun i => ready2 pol i (t i) (fly2 pol t s0 i)) i := by
    intro i _
    refine Or.inl ?_
    rw [(flownTo2_newest pol t s0 exampleUninit configEvents i).2]
    rfl
  have hn : (ready2 pol 0 (t 0) (fly2 pol t s0 0)).gen.1 ≠ .ALTITUDE_CHANGE := by
    show s0.gen.1 ≠ _
    rw [hmode]; intro h; cases h
  obtain ⟨w1, w2⟩ := config_plans 3 2 ⟨10, 0, 1 / 2⟩ (flownTo2 pol t s0 2) (flownTo2_events pol t s0 2)
  have e : ∀ j, (newestPose exampleUninit (configEvents ++ flownTo2 pol t s0 j)).1 = ⟨0, 0, 0⟩ := fun j => by
    rw [(flownTo2_newest pol t s0 exampleUninit configEvents j).1]
  have hgoal : (ready2 pol 2 (t 2) (fly2 pol t s0 2)).goals.goal.val = ⟨10, 0, 1 / 2⟩ := (hg 2).1
  have hfar : 10 ≤ ((⟨10, 0, 1 / 2⟩ : V3 ℝ).minus ⟨0, 0, 0⟩).norm := by
    unfold V3.norm V3.dot V3.minus
    exact Real.le_sqrt_of_sq_le (by norm_num)
  obtain ⟨w, v1, v2⟩ := C115_overshoot_violated r exampleUninit _ configEvents h0 hto hn 3 2 (4 / 3) (by norm_num) (by norm_num) le_rfl (by norm_num)
    (fun x hx => by cases hx) w1 w2 (fun i _ => hsm i) (fun i _ _ => hslow i) 2 le_rfl le_rfl (by
      have := hpace 1
      show 4 / 3 ≤ t 2 - t 1
      rw [show t 2 - t 1 = t (1 + 1) - t 1 from rfl, this]; norm_num) (fun k _ _ => by rw [e 2, e k]; exact ⟨rfl, rfl⟩)
    (by rw [hgoal, e 2]; linarith) (by rw [hgoal, e 2]; norm_num)
  rw [hgoal, e 2] at v2
  rw [e 2] at v1
  refine ⟨s0, _, _, _, _, _, h0, r, hto, hgoal, e 2, w, ?_, by rw [v1]; simp⟩
  refine lt_of_lt_of_le (lt_min ?_ (by linarith)) v2
  norm_num

/-- **C115, finding: a witness.** The vehicle climbs in offboard mode and is carried 10 m to the east between two setpoints; the autopilot lands. The vehicle, 40 m to the east by now, is sent to the
place where the climb began, 20 m back. -/
theorem C115_other_place_witness (Q : PriorityQueue (Candidate ℝ) Candidate.lt) : ∃ s0 pre A S t m,
    loopM (nodeStep Q) (nodeInit exampleUninit (launchTo ⟨0, 0, 23⟩)) configEvents = some s0 ∧ Rounds Q s0 4 pre A S t m ∧ Lands configEvents pre A 3 ∧ Lands configEvents pre A 4 ∧
    ¬ Lands configEvents pre A 2 ∧ (newestPose exampleUninit (configEvents ++ pre 3)).1 = ⟨30, 0, 3⟩ ∧ (newestPose exampleUninit (configEvents ++ pre 4)).1 = ⟨40, 0, 3⟩ ∧
    (m 4).position = V3.fin ⟨20, 0, 23⟩ := by
  let t : ℕ → ℝ := fun i : ℕ => (i : ℝ) * (4 / (((4 : ℕ) : ℝ) + 1))
  let pol : ℕ → NodeSt → V3 ℝ × String := fun i _ => (⟨10 * i, 0, 3⟩, if i ≤ 2 then "OFFBOARD" else "AUTO.LAND")
  obtain ⟨s0, h0, r, hmode, hg, hsm, hslow, hpace, hsnd, hpos, hrch⟩ := free_flight Q 4 ⟨0, 0, 23⟩ pol t _ rfl rfl
  let A : ℕ → NodeSt := fun i => ready2 pol i (t i) (fly2 pol t s0 i)
  have r : Rounds Q s0 4 (flownTo2 pol t s0) A (fun i => fly2 pol t s0 (i + 1)) t (flownMsg2 pol t s0) := r
  have hst : ∀ i, (newestState (configEvents ++ flownTo2 pol t s0 i)).2 = navStateOf (if i ≤ 2 then "OFFBOARD" else "AUTO.LAND") := fun i => by
    rw [(flownTo2_newest pol t s0 exampleUninit configEvents i).2]
  have e : ∀ i : ℕ, (newestPose exampleUninit (configEvents ++ flownTo2 pol t s0 i)).1 = ⟨10 * i, 0, 3⟩ := fun i => by
    rw [(flownTo2_newest pol t s0 exampleUninit configEvents i).1]
  have hgoal : ∀ i, (A i).goals.goal.val = ⟨0, 0, 23⟩ := fun i => (hg i).1
  have hL : ∀ i, 2 < i → Lands configEvents (flownTo2 pol t s0) A i := fun i hi => Or.inl (by rw [hst i, if_neg (by omega)]; rfl)
  have hnot : ¬ Lands configEvents (flownTo2 pol t s0) A 2 := by
    rintro (h | h)
    · rw [hst 2] at h; cases h
    · rw [hst 2] at h; cases h.1
  have hnext : ∀ i < 4, (A (i + 1)).gen.1 = (wgCycle (A i).gen (newestInput exampleUninit (configEvents ++ flownTo2 pol t s0 i) (A i).goals.goal.val (A i).goals.is_land (A i).goals.is_takeoff
      (A i).goals.desired_velocity) (t i)).1 := fun i hi => by
    rw [(r.flags i hi).1, (r.cycle exampleUninit _ configEvents h0 i (by omega)).1]
  have hns : ∀ i, ¬ (newestInput exampleUninit (configEvents ++ flownTo2 pol t s0 i) (A i).goals.goal.val (A i).goals.is_land (A i).goals.is_takeoff (A i).goals.desired_velocity).stay = true := by
    intro i; unfold newestInput; simp
  have m0 : (A 0).gen.1 = .LOITER := hmode
  have step : ∀ i ≤ 2, (A i).gen.2.reach_altitude_offboard = false →
      ((A (i + 1)).gen.1 = .ALTITUDE_CHANGE ∨ ((A (i + 1)).gen.1 = .TRY_PATH ∧ (A i).gen.1 ≠ .TRY_PATH ∧ (A i).gen.1 ≠ .ALTITUDE_CHANGE)) ∧
      (A (i + 1)).gen.2.reach_altitude_offboard = false := by
    intro i hi hr
    have h := C37_offboard_altitude_first (A i).gen (newestInput exampleUninit (configEvents ++ flownTo2 pol t s0 i) (A i).goals.goal.val (A i).goals.is_land (A i).goals.is_takeoff
      (A i).goals.desired_velocity) (t i) rfl (by show (newestState (configEvents ++ flownTo2 pol t s0 i)).2 = _; rw [hst i, if_pos hi]; rfl)
      (by unfold reachedBefore; rw [hr, Bool.and_false])
      (by show (newestPose exampleUninit (configEvents ++ flownTo2 pol t s0 i)).1.z < (A i).goals.goal.val.z; rw [e i, hgoal i]; norm_num)
    rw [hnext i (by omega), (r.flags i (by omega)).2.1, (r.cycle exampleUninit _ configEvents h0 i (by omega)).1]
    exact h
  have f0 : (A 0).gen.2.reach_altitude_offboard = false := hrch
  obtain ⟨-, f1⟩ := step 0 (by omega) f0
  have m1 : (A 1).gen.1 = .TRY_PATH := by
    rw [hnext 0 (by omega), C37_next_state, m0]
    exact if_neg (hns 0)
  obtain ⟨m2, f2⟩ := step 1 (by omega) f1
  have m2 : (A 2).gen.1 = .ALTITUDE_CHANGE := by
    rcases m2 with h | ⟨-, h, -⟩
    · exact h
    · exact absurd m1 h
  obtain ⟨m3, f3⟩ := step 2 (by omega) f2
  have m3 : (A 3).gen.1 = .ALTITUDE_CHANGE := by
    rcases m3 with h | ⟨-, -, h⟩
    · exact h
    · exact absurd m2 h
  have m4 : (A 4).gen.1 = .ALTITUDE_CHANGE := by
    rw [hnext 3 (by omega), C37_next_state, m3]
    dsimp only
    rw [if_neg (hns 3), if_pos]
    refine Or.inr (Or.inr (Or.inr (Or.inr (Or.inl ?_))))
    show (newestState (configEvents ++ flownTo2 pol t s0 3)).2 = _
    rw [hst 3, if_neg (by omega)]
    rfl
  have main := C115_other_place_violated r exampleUninit _ configEvents h0 1 3 (by omega) (by omega) (by rw [m1]; intro h; cases h)
    (fun j h1 h2 => by
      rcases (by omega : j = 2 ∨ j = 3 ∨ j = 4) with rfl | rfl | rfl
      · exact m2
      · exact m3
      · exact m4) (hL 3 (by omega)) (hL 4 (by omega)) (fun j _ _ h => hslow _ h.2) (hslow 4)
  dsimp only at main
  refine ⟨s0, _, _, _, _, _, h0, r, hL 3 (by omega), hL 4 (by omega), hnot, by rw [e 3]; norm_num, by rw [e 4]; norm_num, ?_⟩
  rw [show (3 + 1 : ℕ) = 4 from rfl, show (1 + 1 : ℕ) = 2 from rfl, e 2, hgoal 4] at main
  rw [main]
  norm_num

end Avoidance
