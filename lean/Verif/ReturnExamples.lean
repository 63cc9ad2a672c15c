import Verif.ReturnProps
import Verif.LandTakeoffExamples

/-!
# Returning to launch: the hypotheses of C119 are met
-/

namespace Avoidance
variable {Q : PriorityQueue (Candidate ℝ) Candidate.lt}

theorem flown2_modes {pol : ℕ → NodeSt → V3 ℝ × String} {t : ℕ → ℝ} {s : NodeSt} {md : String} (hp : ∀ i x, (pol i x).2 = md) :
    ∀ i, ∀ e ∈ flown2 pol t s i, e = .state true md ∨ (∃ p q, e = .pose p q) ∨ (∃ x, e = .timer x) ∨ ∃ x, e = .send x := by
  intro i
  induction i with
  | zero => intro e he; cases he
  | succ i ih =>
    intro e he
    rcases List.mem_append.mp he with he | he
    · exact ih e he
    · simp at he
      rcases he with rfl | rfl | rfl | rfl
      · exact Or.inl (by rw [hp])
      · exact Or.inr (Or.inl ⟨_, _, rfl⟩)
      · exact Or.inr (Or.inr (Or.inl ⟨_, rfl⟩))
      · exact Or.inr (Or.inr (Or.inr ⟨_, rfl⟩))

theorem flownTo2_noLanding {pol : ℕ → NodeSt → V3 ℝ × String} {t : ℕ → ℝ} {s : NodeSt} {md : String} (hp : ∀ i x, (pol i x).2 = md) (hmd : md ≠ "AUTO.LAND") (i : ℕ) :
    NoLanding (configEvents ++ flownTo2 pol t s i) := by
  have hall : ∀ e ∈ configEvents ++ flownTo2 pol t s i, (∃ a b c d, e = .config a b c d) ∨ e = .state true md ∨ (∃ p q, e = .pose p q) ∨ (∃ x, e = .timer x) ∨ ∃ x, e = NodeEvent.send x := by
    intro e he
    rcases List.mem_append.mp he with he | he
    · simp [configEvents] at he
      exact Or.inl ⟨_, _, _, _, he⟩
    · rcases List.mem_append.mp he with he | he
      · exact Or.inr (flown2_modes hp _ e he)
      · simp at he
        rcases he with rfl | rfl | rfl
        · exact Or.inr (Or.inl (by rw [hp]))
        · exact Or.inr (Or.inr (Or.inl ⟨_, _, rfl⟩))
        · exact Or.inr (Or.inr (Or.inr (Or.inl ⟨_, rfl⟩)))
  refine ⟨fun a h => ?_, fun m h => ?_⟩
  · rcases hall _ h with ⟨_, _, _, _, h⟩ | h | ⟨_, _, h⟩ | ⟨_, h⟩ | ⟨_, h⟩
    · cases h
    · injection h with _ h; exact hmd h.symm
    · cases h
    · cases h
    · cases h
  · rcases hall _ h with ⟨_, _, _, _, h⟩ | h | ⟨_, _, h⟩ | ⟨_, h⟩ | ⟨_, h⟩ <;> cases h

/-- The hypotheses of `C119_climbs` are met, for every number of rounds: home is 50 m away and 17 m higher, the vehicle flies half of the way to each setpoint. -/
example (Q : PriorityQueue (Candidate ℝ) Candidate.lt) (n : ℕ) : ∃ s0 pre A S t m, loopM (nodeStep Q) (nodeInit exampleUninit (launchTo ⟨50, 0, 20⟩)) configEvents = some s0 ∧
    Rounds Q s0 n pre A S t m ∧ (∀ i ≤ n, Returns configEvents pre i) ∧ (newestPose exampleUninit (configEvents ++ pre 2)).1 = ⟨0, 0, 3⟩ ∧
    (2 ≤ n → (17 : ℝ) < ((n : ℝ) - 2) * (1 / 2 * (4 / ((n : ℝ) + 1) / (9 / 10 + 4 / ((n : ℝ) + 1)) * min 2 1)) + 4 / 5 →
      ∃ i ≤ n, 20 - 4 / 5 < (newestPose exampleUninit (configEvents ++ pre i)).1.z) := by
  let t : ℕ → ℝ := fun i : ℕ => (i : ℝ) * (4 / ((n : ℝ) + 1))
  let pol := fliesBy ⟨0, 0, 3⟩ "AUTO.RTL" (1 / 2)
  obtain ⟨s0, h0, r, hmode, hg, hsm, hslow, hpace, hsnd, hpos, hrch⟩ := free_flight Q n ⟨50, 0, 20⟩ pol t _ rfl rfl
  have hrtl : ∀ i ≤ n, Returns configEvents (flownTo2 pol t s0) i := by
    intro i _
    show (newestState _).2 = _
    rw [(flownTo2_newest pol t s0 exampleUninit configEvents i).2]
    rfl
  have hn : (ready2 pol 0 (t 0) (fly2 pol t s0 0)).gen.1 ≠ .ALTITUDE_CHANGE := by
    show s0.gen.1 ≠ _
    rw [hmode]; intro h; cases h
  obtain ⟨w1, w2⟩ := config_plans 3 2 ⟨50, 0, 20⟩ (flownTo2 pol t s0 n) (flownTo2_events pol t s0 n)
  have hfin : ∀ i, 2 ≤ i → i ≤ n → ∃ q, (flownMsg2 pol t s0 i).position = V3.fin q := by
    intro i _ hi
    obtain ⟨v1, -⟩ := config_plans 3 2 ⟨50, 0, 20⟩ (flownTo2 pol t s0 i) (flownTo2_events pol t s0 i)
    have hrun : loopM (nodeStep Q) (nodeInit exampleUninit (launchTo ⟨50, 0, 20⟩)) (configEvents ++ flownTo2 pol t s0 i) = some (ready2 pol i (t i) (fly2 pol t s0 i)) := by
      rw [loopM_append', h0]; exact r.upTo i hi
    exact ⟨_, (C92_setpoint_partial 3 (by norm_num) exampleUninit _ _ _ _ _ hrun (r.round i hi) _ (r.sends i hi) (fun x hx => by cases hx) v1
      (flownTo2_noLanding (md := "AUTO.RTL") (fun _ _ => rfl) (by decide) i)).2.2 (Or.inl (hsm i))⟩
  have fl := fliesBy_towards (n := n) (by norm_num) (by norm_num) hsnd hpos hfin exampleUninit configEvents
  have e : ∀ j < 3, (newestPose exampleUninit (configEvents ++ flownTo2 pol t s0 j)).1 = ⟨0, 0, 3⟩ := by
    intro j hj
    rw [(flownTo2_newest pol t s0 exampleUninit configEvents j).1]
    exact fliesBy_early (md := "AUTO.RTL") hj
  obtain ⟨-, main⟩ := C119_climbs r exampleUninit _ configEvents h0 hrtl hn 3 2 (4 / ((n : ℝ) + 1)) (1 / 2) (by norm_num) (by norm_num) le_rfl (by positivity) (by norm_num)
    (fun x hx => by cases hx) w1 w2 (fun i _ => hsm i) (fun i _ _ => hslow i) (fun i _ => (hpace i).ge) _ fl (fun _ _ _ => le_rfl) ⟨50, 0, 20⟩ (fun i _ => (hg i).1)
    (by rw [e 1 (by omega), e 2 (by omega)]; exact ⟨rfl, rfl⟩) (by
      rw [e 2 (by omega)]
      unfold V3.normXY V3.minus
      exact Real.le_sqrt_of_sq_le (by norm_num))
  refine ⟨s0, _, _, _, _, _, h0, r, hrtl, e 2 (by omega), fun hn2 hlen => main hn2 ?_⟩
  show (20 : ℝ) - (newestPose exampleUninit (configEvents ++ flownTo2 pol t s0 2)).1.z < _
  rw [e 2 (by omega)]
  linarith

/-- **C119, finding: a witness.** The autopilot returns to launch; the vehicle is straight above home, 30 m high, from the first round to the last: no setpoint after the first is one of a change of
altitude, and none gives a velocity. -/
theorem C119_no_descent_witness (Q : PriorityQueue (Candidate ℝ) Candidate.lt) (n : ℕ) : ∃ s0 pre A S t m,
    loopM (nodeStep Q) (nodeInit exampleUninit (launchTo ⟨0, 0, 0⟩)) configEvents = some s0 ∧ Rounds Q s0 n pre A S t m ∧ (∀ i ≤ n, Returns configEvents pre i) ∧
    (∀ i ≤ n, (A i).goals.goal.val = ⟨0, 0, 0⟩ ∧ (newestPose exampleUninit (configEvents ++ pre i)).1 = ⟨0, 0, 30⟩) ∧
    ∀ i < n, (A (i + 1)).gen.1 ≠ .ALTITUDE_CHANGE ∧ (m (i + 1)).velocity = V3.nan := by
  let t : ℕ → ℝ := fun i : ℕ => (i : ℝ) * (4 / ((n : ℝ) + 1))
  let pol : ℕ → NodeSt → V3 ℝ × String := fun _ _ => (⟨0, 0, 30⟩, "AUTO.RTL")
  obtain ⟨s0, h0, r, hmode, hg, hsm, hslow, hpace, hsnd, hpos, hrch⟩ := free_flight Q n ⟨0, 0, 0⟩ pol t _ rfl rfl
  have hrtl : ∀ i ≤ n, Returns configEvents (flownTo2 pol t s0) i := by
    intro i _
    show (newestState _).2 = _
    rw [(flownTo2_newest pol t s0 exampleUninit configEvents i).2]
    rfl
  have e : ∀ j, (newestPose exampleUninit (configEvents ++ flownTo2 pol t s0 j)).1 = ⟨0, 0, 30⟩ := fun j => by
    rw [(flownTo2_newest pol t s0 exampleUninit configEvents j).1]
  have hgoal : ∀ i, (ready2 pol i (t i) (fly2 pol t s0 i)).goals.goal.val = ⟨0, 0, 0⟩ := fun i => (hg i).1
  refine ⟨s0, _, _, _, _, _, h0, r, hrtl, fun i _ => ⟨hgoal i, e i⟩, fun i hi => ?_⟩
  exact C119_no_descent_violated r exampleUninit _ configEvents h0 i hi (hrtl i hi.le) (by
    show (ready2 pol i (t i) (fly2 pol t s0 i)).goals.goal.val.z - _ < _
    rw [hgoal i, e i]
    norm_num)

end Avoidance
