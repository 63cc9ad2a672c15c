import Verif.ClimbProps
import Verif.ReachGoalExamples

/-!
# Climbs in a closed loop with the local planner node: the hypotheses of C114 are met
-/

namespace Avoidance
variable {Q : PriorityQueue (Candidate ℝ) Candidate.lt}

/-- The node is configured without smoothing, the vehicle is armed in offboard mode, at a height of 3 m. -/
noncomputable def offboardEvents : List NodeEvent :=
  [.config (exampleTree 1) 0 0 20, .state true "OFFBOARD", .pose ⟨0, 0, 3⟩ ⟨1, 0, 0, 0⟩]

/-- The numbers of a position. -/
noncomputable def numbersOf (v : V3 (Option ℝ)) : V3 ℝ := ⟨v.x.getD 0, v.y.getD 0, v.z.getD 0⟩

/-- After the fifth message the vehicle flies the part `f` of the way to each setpoint. -/
noncomputable def climbsBy (f : ℝ) (s : NodeSt) : V3 ℝ × Quat ℝ :=
  match s.sent.getLast? with
  | some m => if 5 ≤ s.sent.length then (s.position.plus (V3.smul f ((numbersOf m.position).minus s.position)), headed 0) else (⟨0, 0, 3⟩, headed 0)
  | none => (⟨0, 0, 3⟩, headed 0)

theorem climbsBy_early {f : ℝ} {s : NodeSt} (h : s.sent.length < 5) : climbsBy f s = (⟨0, 0, 3⟩, headed 0) := by
  unfold climbsBy
  split
  · rw [if_neg (by omega)]
  · rfl

theorem climbsBy_last {f : ℝ} {s : NodeSt} {m : SentMsg} (h : s.sent.getLast? = some m) (h5 : 5 ≤ s.sent.length) :
    climbsBy f s = (s.position.plus (V3.smul f ((numbersOf m.position).minus s.position)), headed 0) := by
  unfold climbsBy
  rw [h]
  dsimp only
  rw [if_pos h5]

theorem offboard_rest (rest : List NodeEvent) (hr : ∀ e ∈ rest, (∃ p q, e = .pose p q) ∨ (∃ x, e = .timer x) ∨ ∃ x, e = NodeEvent.send x) :
    newestState (offboardEvents ++ rest) = (true, .offboard) ∧ newestSmoothing (offboardEvents ++ rest) = (0, 0) := by
  induction rest using List.reverseRecOn with
  | nil => exact ⟨rfl, rfl⟩
  | append_singleton rest e ih =>
    rw [← List.append_assoc, newestState_snoc, newestSmoothing_snoc]
    have := ih (fun x hx => hr x (List.mem_append_left _ hx))
    rcases hr e (by simp) with ⟨p, q, rfl⟩ | ⟨x, rfl⟩ | ⟨x, rfl⟩ <;> exact this

theorem offboard_plans (V c : ℝ) (g : V3 ℝ) (rest : List NodeEvent) (hr : ∀ e ∈ rest, (∃ p q, e = .pose p q) ∨ (∃ x, e = .timer x) ∨ ∃ x, e = NodeEvent.send x) :
    PlansWithin V (launchTo g) (offboardEvents ++ rest) ∧ PlansFrom c (launchTo g) (offboardEvents ++ rest) := by
  have hno : ∀ pre f t post, offboardEvents ++ rest ≠ pre ++ .planStart f t :: post := by
    intro pre f t post e
    have hm : NodeEvent.planStart f t ∈ offboardEvents ++ rest := by rw [e]; simp
    rcases List.mem_append.mp hm with hm | hm
    · simp [offboardEvents] at hm
    · rcases hr _ hm with ⟨p, q, h⟩ | ⟨x, h⟩ | ⟨x, h⟩ <;> cases h
  exact ⟨fun pre f t post e => absurd e (hno _ _ _ _), fun pre f t post e => absurd e (hno _ _ _ _)⟩

/-- Flights of every length, from a height of 3 m to a goal at height `h`, 20 m to the east: the vehicle stays where it is until the fifth message, and then flies in any way. -/
theorem offboard_flight (Q : PriorityQueue (Candidate ℝ) Candidate.lt) (n : ℕ) (hn2 : 2 ≤ n) (h : ℝ) (hh : 3 < h) (pol : NodeSt → V3 ℝ × Quat ℝ)
    (hpol : ∀ s : NodeSt, s.sent.length < 5 → pol s = (⟨0, 0, 3⟩, headed 0)) (t : ℕ → ℝ) (tau : ℝ) (htau : tau = 4 / ((n : ℝ) + 2)) (hdt : t = fun i : ℕ => (i : ℝ) * tau) :
    ∃ s0, loopM (nodeStep Q) (nodeInit exampleUninit (launchTo ⟨20, 0, h⟩)) offboardEvents = some s0 ∧
      Rounds Q s0 n (flownTo pol t s0) (fun i => ready pol (t (i + 2)) (fly pol t s0 (i + 2))) (fun i => fly pol t s0 (i + 3)) (fun i => t (i + 2)) (flownMsg pol t s0) ∧
      OffboardTo h offboardEvents n (flownTo pol t s0) (fun i => ready pol (t (i + 2)) (fly pol t s0 (i + 2))) ∧ (fly pol t s0 2).gen.2.reach_altitude_offboard = false ∧
      PlansWithin 3 (launchTo ⟨20, 0, h⟩) (offboardEvents ++ flownTo pol t s0 n) ∧ PlansFrom 2 (launchTo ⟨20, 0, h⟩) (offboardEvents ++ flownTo pol t s0 n) ∧
      (∀ i ≤ n, (newestSmoothing (offboardEvents ++ flownTo pol t s0 i)).1 < 1 / 100) ∧ (∀ i < n, t (i + 1 + 2) - t (i + 2) = tau) ∧
      (∀ i ≤ 2, (newestPose exampleUninit (offboardEvents ++ flownTo pol t s0 i)).1 = ⟨0, 0, 3⟩) ∧
      (∀ i ≤ n + 3, (fly pol t s0 i).sent.length = i) ∧ (∀ i ≤ n, (fly pol t s0 (i + 3)).sent = (fly pol t s0 (i + 2)).sent ++ [flownMsg pol t s0 i]) := by
  have hstart : ∃ a, loopM (nodeStep Q) (nodeInit exampleUninit (launchTo ⟨20, 0, h⟩)) offboardEvents = some a ∧ a.cmd = none ∧ a.start_time = 0 ∧ a.goals.goal.val = ⟨20, 0, h⟩ ∧
      a.sent = [] ∧ a.gen.2.reach_altitude_offboard = false ∧ a.nav = .offboard := ⟨_, rfl, rfl, rfl, rfl, rfl, rfl, rfl⟩
  obtain ⟨s0, h0, hcmd, hst, hgoal, hsent, hreach, hnav⟩ := hstart
  have htau0 : 0 < tau := by rw [htau]; positivity
  have ht : ∀ i ≤ n + 2, t i - s0.start_time ≤ 5 := by
    intro i hi
    rw [hst, hdt]
    show (i : ℝ) * tau - 0 ≤ 5
    have h1 : (i : ℝ) ≤ (n : ℝ) + 2 := by exact_mod_cast hi
    have h2 : (i : ℝ) * tau ≤ ((n : ℝ) + 2) * tau := mul_le_mul_of_nonneg_right h1 htau0.le
    have h3 : ((n : ℝ) + 2) * tau = 4 := by rw [htau]; field_simp
    linarith
  have r := fly_rounds (Q := Q) pol t s0 hcmd n (fun i hi => ht (i + 2) (by omega))
  have hlen : ∀ i ≤ n + 3, (fly pol t s0 i).sent.length = i := by
    intro i
    induction i with
    | zero => intro _; show s0.sent.length = 0; rw [hsent]; rfl
    | succ i ih =>
      intro hi
      rw [(fly_sends pol t s0 hcmd i (ht i (by omega))).2, List.length_append, ih (by omega)]
      rfl
  have hp0 : ∀ i ≤ 4, i ≤ n + 3 → pol (fly pol t s0 i) = (⟨0, 0, 3⟩, headed 0) := fun i hi hin => hpol _ (by rw [hlen i hin]; omega)
  have ho : OffboardTo h offboardEvents n (flownTo pol t s0) (fun i => ready pol (t (i + 2)) (fly pol t s0 (i + 2))) := by
    constructor
    · exact fun i _ => (offboard_rest _ (flownTo_events pol t s0 i)).1
    · intro i _
      show (fly pol t s0 (i + 2)).goals.goal.val.z = h
      rw [(fly_keeps pol t s0 hcmd (i + 2)).2.2.1, hgoal]
  have hsmooth : ∀ i ≤ n, (newestSmoothing (offboardEvents ++ flownTo pol t s0 i)).1 < 1 / 100 := fun i _ => by
    rw [(offboard_rest _ (flownTo_events pol t s0 i)).2]; norm_num
  obtain ⟨w1, w2⟩ := offboard_plans 3 2 ⟨20, 0, h⟩ (flownTo pol t s0 n) (flownTo_events pol t s0 n)
  have hlow2 : ∀ i ≤ 2, (newestPose exampleUninit (offboardEvents ++ flownTo pol t s0 i)).1 = ⟨0, 0, 3⟩ := by
    intro i hi
    rw [flownTo_pose]
    rw [hp0 (i + 2) (by omega) (by omega)]
  have hno : ∀ i ≤ 2, (fly pol t s0 i).gen.2.reach_altitude_offboard = false := by
    intro i
    induction i with
    | zero => intro _; exact hreach
    | succ i ih =>
      intro hi
      rw [(fly_sends pol t s0 hcmd i (ht i (by omega))).1]
      refine (C37_offboard_altitude_first _ _ _ rfl ?_ (by unfold reachedBefore; rw [ih (by omega)]; simp) ?_).2
      · show (fly pol t s0 i).nav = _
        rw [(fly_keeps pol t s0 hcmd i).2.2.2.1]
        exact hnav
      · show (pol (fly pol t s0 i)).1.z < (fly pol t s0 i).goals.goal.val.z
        rw [(fly_keeps pol t s0 hcmd i).2.2.1, hgoal, hp0 i (by omega) (by omega)]
        exact hh
  have hnot : (ready pol (t (0 + 2)) (fly pol t s0 (0 + 2))).gen.2.reach_altitude_offboard = false := hno 2 le_rfl
  refine ⟨s0, h0, r, ho, hnot, w1, w2, hsmooth, fun i _ => ?_, hlow2, hlen, fun i hi => (fly_sends pol t s0 hcmd (i + 2) (ht (i + 2) (by omega))).2⟩
  rw [hdt]
  push_cast
  ring

/-- Climbs of every length: the vehicle flies the part `f` of the way to each setpoint, from a height of 3 m to a goal at height `h`, 20 m to the east. -/
theorem climb_flight (Q : PriorityQueue (Candidate ℝ) Candidate.lt) (n : ℕ) (hn2 : 2 ≤ n) (f h : ℝ) (hf0 : 0 ≤ f) (hf1 : f ≤ 1) (hh : 3 < h) (hs : f < 1 ∨ h ≤ 3 + 1 / 10) :
    ∃ s0 pre A S t m, loopM (nodeStep Q) (nodeInit exampleUninit (launchTo ⟨20, 0, h⟩)) offboardEvents = some s0 ∧ Rounds Q s0 n pre A S t m ∧
      OffboardTo h offboardEvents n pre A ∧ (A 0).gen.2.reach_altitude_offboard = false ∧
      PlansWithin 3 (launchTo ⟨20, 0, h⟩) (offboardEvents ++ pre n) ∧ PlansFrom 2 (launchTo ⟨20, 0, h⟩) (offboardEvents ++ pre n) ∧
      (∀ i ≤ n, (newestSmoothing (offboardEvents ++ pre i)).1 < 1 / 100) ∧ (∀ i < n, t (i + 1) - t i = 4 / ((n : ℝ) + 2)) ∧
      FliesTowards exampleUninit offboardEvents n pre m (fun _ => f) ∧ ∀ i ≤ 2, (newestPose exampleUninit (offboardEvents ++ pre i)).1 = ⟨0, 0, 3⟩ := by
  set tau := 4 / ((n : ℝ) + 2) with htau
  let t : ℕ → ℝ := fun i => i * tau
  let pol := climbsBy f
  obtain ⟨s0, h0, r, ho, hnot, w1, w2, hsmooth, hpace, hlow2, hlen, hsnd⟩ := offboard_flight Q n hn2 h hh pol (fun s hs => climbsBy_early hs) t tau htau rfl
  have hpos : ∀ i, (fly pol t s0 (i + 1)).position = (pol (fly pol t s0 i)).1 := by
    intro i
    exact (sendStep_keeps (ready pol (t i) (fly pol t s0 i)) (t i)).1
  have hp : ∀ i, 2 ≤ i → i < n → (pol (fly pol t s0 (i + 1 + 2))).1 =
      ((pol (fly pol t s0 (i + 2))).1).plus (V3.smul f ((numbersOf (flownMsg pol t s0 i).position).minus (pol (fly pol t s0 (i + 2))).1)) := by
    intro i h2 hi
    have h1 := hsnd i (by omega)
    have h3 : (fly pol t s0 (i + 1 + 2)).sent.getLast? = some (flownMsg pol t s0 i) := by
      show (fly pol t s0 (i + 3)).sent.getLast? = _
      rw [h1, List.getLast?_concat]
    have h4 := climbsBy_last (f := f) h3 (by rw [hlen _ (by omega)]; omega)
    show (climbsBy f (fly pol t s0 (i + 1 + 2))).1 = _
    rw [h4]
    show ((fly pol t s0 (i + 2 + 1)).position).plus _ = _
    rw [hpos (i + 2)]
  have key : ∀ i, 2 ≤ i → i ≤ n → (∀ j ≤ i, (newestPose exampleUninit (offboardEvents ++ flownTo pol t s0 j)).1.z < h) ∧
      3 ≤ (newestPose exampleUninit (offboardEvents ++ flownTo pol t s0 i)).1.z := by
    intro i h2
    induction i, h2 using Nat.le_induction with
    | base => intro _; exact ⟨fun j hj => by rw [hlow2 j hj]; exact hh, by rw [hlow2 2 le_rfl]⟩
    | succ i h2 ih =>
      intro hi
      obtain ⟨j1, j2⟩ := ih (by omega)
      obtain ⟨-, k, k0, k1, k2, k3, -⟩ := climb_round r exampleUninit (launchTo ⟨20, 0, h⟩) offboardEvents h0 ho hnot 3 2 (by norm_num) (by norm_num) (by norm_num)
        (fun x hx => by cases hx) w1 w2 hsmooth i h2 (by omega) j1
      have hz : (newestPose exampleUninit (offboardEvents ++ flownTo pol t s0 (i + 1))).1.z = (newestPose exampleUninit (offboardEvents ++ flownTo pol t s0 i)).1.z + f * k := by
        rw [flownTo_pose, hp i h2 (by omega), k2, flownTo_pose]
        unfold V3.plus V3.smul V3.minus numbersOf V3.fin
        simp
      have hd := j1 i le_rfl
      have hlt : f * k < h - (newestPose exampleUninit (offboardEvents ++ flownTo pol t s0 i)).1.z := by
        rcases hs with hs | hs
        · rcases k0.eq_or_lt with hk | hk
          · rw [← hk]; linarith
          · nlinarith
        · have := k3 (by linarith)
          have hfk : f * k ≤ k := by nlinarith
          nlinarith
      refine ⟨fun j hj => ?_, ?_⟩
      · rcases Nat.lt_or_ge j (i + 1) with hj' | hj'
        · exact j1 j (by omega)
        · obtain rfl : j = i + 1 := by omega
          rw [hz]; linarith
      · rw [hz]
        have := mul_nonneg hf0 k0
        linarith
  refine ⟨s0, _, _, _, _, _, h0, r, ho, hnot, w1, w2, hsmooth, hpace, ⟨fun _ _ _ => ⟨hf0, hf1⟩, fun i h2 hi => ?_⟩, hlow2⟩
  · obtain ⟨-, k, k0, k1, k2, -, -⟩ := climb_round r exampleUninit (launchTo ⟨20, 0, h⟩) offboardEvents h0 ho hnot 3 2 (by norm_num) (by norm_num) (by norm_num)
      (fun x hx => by cases hx) w1 w2 hsmooth i h2 hi.le (key i h2 hi.le).1
    refine ⟨_, k2, ?_⟩
    rw [flownTo_pose, hp i h2 hi, k2, flownTo_pose]
    congr 2

/-- The hypotheses of `C114_climbs_partial` are met, for every number of rounds: the vehicle flies half of the way to each setpoint, from 3 m to a goal at 23 m. -/
example (Q : PriorityQueue (Candidate ℝ) Candidate.lt) (n : ℕ) (hn : 2 ≤ n) : ∃ s0 pre A S t m, loopM (nodeStep Q) (nodeInit exampleUninit (launchTo ⟨20, 0, 23⟩)) offboardEvents = some s0 ∧
    Rounds Q s0 n pre A S t m ∧
    let p := fun i => (newestPose exampleUninit (offboardEvents ++ pre i)).1
    p 2 = ⟨0, 0, 3⟩ ∧ ∀ i, 2 ≤ i → i < n → (∀ j ≤ i, (p j).z < 23) →
      23 - (p (i + 1)).z ≤ 23 - (p i).z - 1 / 2 * advance (4 / ((n : ℝ) + 2) / (9 / 10 + 4 / ((n : ℝ) + 2))) 2 (23 - (p i).z) := by
  obtain ⟨s0, pre, A, S, t, m, h0, r, ho, hnot, w1, w2, hsm, hpace, fl, hp⟩ := climb_flight Q n hn (1 / 2) 23 (by norm_num) (by norm_num) (by norm_num) (Or.inl (by norm_num))
  obtain ⟨main, -⟩ := C114_climbs_partial r exampleUninit _ offboardEvents h0 ho hnot 3 2 (4 / ((n : ℝ) + 2)) (1 / 2) (by norm_num) (by norm_num) le_rfl (by positivity) (by norm_num)
    (fun x hx => by cases hx) w1 w2 hsm (fun i hi => (hpace i hi).ge) _ fl (fun _ _ _ => le_rfl)
  refine ⟨s0, pre, A, S, t, m, h0, r, hp 2 le_rfl, fun i h2 hi hlow => ?_⟩
  obtain ⟨-, -, k, -, -, -, k4⟩ := main i h2 hi.le hlow
  exact (k4 hi).1

/-- **C114, finding: a witness.** The vehicle starts 5 cm below the altitude of its goal, which is 20 m to the east, and flies exactly to each setpoint. After any number of rounds it has not moved to the
east and is still told to climb. -/
theorem C114_never_reached_witness (Q : PriorityQueue (Candidate ℝ) Candidate.lt) (n : ℕ) (hn : 2 ≤ n) : ∃ s0 pre A S t m,
    loopM (nodeStep Q) (nodeInit exampleUninit (launchTo ⟨20, 0, 3 + 1 / 20⟩)) offboardEvents = some s0 ∧ Rounds Q s0 n pre A S t m ∧
    OffboardTo (3 + 1 / 20) offboardEvents n pre A ∧ FliesTowards exampleUninit offboardEvents n pre m (fun _ => 1) ∧
    let p := fun i => (newestPose exampleUninit (offboardEvents ++ pre i)).1
    ∀ i, 2 ≤ i → i ≤ n → (p i).z < 3 + 1 / 20 ∧ (p i).x = 0 ∧ (p i).y = 0 ∧ (A i).gen.1 = .ALTITUDE_CHANGE := by
  obtain ⟨s0, pre, A, S, t, m, h0, r, ho, hnot, w1, w2, hsm, hpace, fl, hp⟩ := climb_flight Q n hn 1 (3 + 1 / 20) (by norm_num) (by norm_num) (by norm_num) (Or.inr (by norm_num))
  refine ⟨s0, pre, A, S, t, m, h0, r, ho, fl, fun i h2 hi => ?_⟩
  obtain ⟨a1, a2, a3, a4, -⟩ := C114_never_reached_violated r exampleUninit _ offboardEvents h0 ho hnot 3 (by norm_num) (fun x hx => by cases hx) w1 hsm _ fl
    (fun i hi => by rw [hp i hi]; norm_num) (Or.inl (by rw [hp 2 le_rfl]; norm_num)) i h2 hi
  have e2 : (newestPose exampleUninit (offboardEvents ++ pre 2)).1 = ⟨0, 0, 3⟩ := hp 2 le_rfl
  exact ⟨a1, a3.trans (by show (newestPose exampleUninit (offboardEvents ++ pre 2)).1.x = 0; rw [e2]), a4.trans (by show (newestPose exampleUninit (offboardEvents ++ pre 2)).1.y = 0; rw [e2]), a2⟩

/-- The hypotheses of `C114_climb_ends` are met: a vehicle at 3 m climbs, and before the sixth setpoint is at 24 m, above the goal; the climb is over. Then also the hypothesis of `C114_reached_means` is met: the altitude is noted as reached. -/
example (Q : PriorityQueue (Candidate ℝ) Candidate.lt) (n : ℕ) (hn : 4 ≤ n) : ∃ s0 pre A S t m,
    loopM (nodeStep Q) (nodeInit exampleUninit (launchTo ⟨20, 0, 23⟩)) offboardEvents = some s0 ∧ Rounds Q s0 n pre A S t m ∧ (A 3).gen.1 = .ALTITUDE_CHANGE ∧
    (∀ i, 3 < i → i ≤ n → (A i).gen.1 ≠ .ALTITUDE_CHANGE) ∧ (A 4).gen.2.reach_altitude_offboard = true := by
  let pol : NodeSt → V3 ℝ × Quat ℝ := fun s => if 5 ≤ s.sent.length then (⟨0, 0, 24⟩, headed 0) else (⟨0, 0, 3⟩, headed 0)
  obtain ⟨s0, h0, r, ho, hnot, w1, w2, hsmooth, hpace, hlow2, hlen, hsnd⟩ := offboard_flight Q n (by omega) 23 (by norm_num) pol (fun s hs => if_neg (by omega)) _ _ rfl rfl
  have hm := (climb_mode r exampleUninit _ offboardEvents h0 ho hnot 3 (by omega) (fun j hj => by rw [hlow2 j (by omega)]; norm_num)).2.2.1 (by norm_num)
  have habove : (23 : ℝ) ≤ (newestPose exampleUninit (offboardEvents ++ flownTo pol (fun i => (i : ℝ) * (4 / ((n : ℝ) + 2))) s0 3)).1.z := by
    rw [flownTo_pose]
    show (23 : ℝ) ≤ (if 5 ≤ _ then ((⟨0, 0, 24⟩ : V3 ℝ), headed 0) else (⟨0, 0, 3⟩, headed 0)).1.z
    rw [if_pos (by rw [hlen 5 (by omega)])]
    norm_num
  have main := C114_climb_ends r exampleUninit _ offboardEvents h0 ho.state 3 (by omega) (Or.inr hm) (by rw [ho.height 3 (by omega)]; exact habove)
  refine ⟨s0, _, _, _, _, _, h0, r, hm, fun i h3 hi => (main i h3 hi).1, ?_⟩
  obtain ⟨f1, f2, -, f4⟩ := r.flags 3 (by omega)
  obtain ⟨c1, -⟩ := r.cycle exampleUninit _ offboardEvents h0 3 (by omega)
  rw [f2, c1]
  refine (reach_noted _ _ _ rfl (Or.inr ⟨?_, ?_, Or.inr hm⟩)).1
  · show (newestState _).2 = _
    rw [ho.state 3 (by omega)]
  · show (ready pol _ (fly pol _ s0 (3 + 2))).goals.goal.val.z ≤ _
    rw [ho.height 3 (by omega)]
    exact habove

end Avoidance
