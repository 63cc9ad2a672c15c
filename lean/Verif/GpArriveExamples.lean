import Verif.GpArriveProps
import Verif.GpRunMore

/-!
# C113: flights

For every state without the speed-up heuristics there is a vehicle that answers every command; such flights meet the hypotheses of C113, and one of them never
gets to its goal.
-/

namespace Avoidance
namespace Global

noncomputable section

/-- what the node publishes at a command -/
def sendOut (st : GlobalSt) : Option (GPose ℝ ℝ) :=
  (setpoint st.fl.goal.position st.fl.here.position st.conf.speed.defaultSpeed).map fun p => ⟨p, st.fl.goal.orientation⟩

/-- the state after a command -/
def cmdSt (st : GlobalSt) : GlobalSt := { st with fl := { st.fl with speed := st.conf.speed.defaultSpeed } }

/-- the vehicle's answer: the part `lam` of the way, with the yaw commanded -/
def answer (lam : ℝ) (st : GlobalSt) : GPose ℝ ℝ := ⟨partWay st.fl.here.position (sentTo st (sendOut st)) lam, st.fl.goal.orientation⟩

/-- the state after a command and the answer -/
def afterRound (sc lam : ℝ) (st : GlobalSt) : GlobalSt :=
  { cmdSt st with gp := setPose sc st.gp (answer lam st).position, fl := followPosition (cmdSt st).fl (answer lam st) }

theorem afterRound_conf (sc lam : ℝ) (st : GlobalSt) : (afterRound sc lam st).conf = st.conf := rfl

theorem facing_self (y : ℝ) : facing y y := by
  left
  unfold yawDiff
  simp [Real.pi_pos]

theorem afterRound_flown {sc lam : ℝ} (h0 : 0 ≤ lam) (h1 : lam ≤ 1) {st : GlobalSt} (hs : st.conf.speed.speedupHeuristics = false) :
    FlownRound sc lam st (sendOut st) lam [⟨cmdSt st, .position (answer lam st), none⟩] (afterRound sc lam st) := by
  have hcmd : gStep sc st .command = some (cmdSt st, some (sendOut st)) := by
    unfold gStep commandTick
    dsimp only
    rw [hs, if_neg (by simp)]
    have hv : commandedSpeed st.conf.speed 0 = some st.conf.speed.defaultSpeed := by
      unfold commandedSpeed
      rw [hs, if_neg (by simp)]
    dsimp only
    rw [hv]
    rfl
  refine ⟨.cons trivial hcmd (.cons trivial rfl (.nil _)), ?_, ?_, ⟨_, List.mem_singleton_self _, _, rfl⟩, ⟨le_refl _, h1⟩, ?_⟩
  · intro e he
    rw [List.mem_singleton.mp he]
    exact ⟨by simp, by simp⟩
  · intro e he p hp
    rw [List.mem_singleton.mp he] at hp ⊢
    obtain rfl : answer lam st = p := by simpa using hp
    exact ⟨facing_self _, lam, h0, h1, rfl⟩
  · show (followPosition (cmdSt st).fl (answer lam st)).here.position = _
    rw [(follow_here _ _).1]
    rfl

/-- **Flights exist**: for every state without the speed-up heuristics, every part `lam` and every number of rounds. -/
theorem flights_exist {sc lam v0 v1 : ℝ} (h0 : 0 ≤ lam) (h1 : lam ≤ 1) {st : GlobalSt} (hs : st.conf.speed.speedupHeuristics = false)
    (hv : SpeedsIn v0 v1 st.conf.speed) (n : ℕ) :
    Flight sc lam v0 v1 n (fun k => (afterRound sc lam)^[k] st) (fun k => sendOut ((afterRound sc lam)^[k] st)) (fun _ => lam)
      (fun k => [⟨cmdSt ((afterRound sc lam)^[k] st), .position (answer lam ((afterRound sc lam)^[k] st)), none⟩]) := by
  have hconf : ∀ k, ((afterRound sc lam)^[k] st).conf = st.conf := by
    intro k
    induction k with
    | zero => rfl
    | succ k ih => rw [Function.iterate_succ_apply', afterRound_conf, ih]
  refine ⟨fun k _ => ?_, fun k _ => by rw [hconf]; exact hv⟩
  have := afterRound_flown (sc := sc) h0 h1 (st := (afterRound sc lam)^[k] st) (by rw [hconf]; exact hs)
  rw [Function.iterate_succ_apply']
  exact this

/-- the way flown in one round -/
theorem flight_short {sc lam v0 v1 L : ℝ} (hlam : 0 ≤ lam) (hm : lam * max 1 v1 ≤ 1) {st st' : GlobalSt} {out : Option (GPose ℝ ℝ)} {mid : List Entry}
    (h : FlownRound sc lam st out lam mid st') (hC : SpeedsIn v0 v1 st.conf.speed) (h0 : 0 < v0) (hL : LegsWithin L (st.fl.goal :: st.fl.path)) :
    lam * dist3 st.fl.here.position (sentTo st out) ≤ 1 := by
  obtain ⟨v, k, hv0, hv1, k0, k2, k3, k4, _⟩ := round_spec h hC h0 hL
  rw [k4]
  refine le_trans (mul_le_mul_of_nonneg_left ?_ hlam) hm
  rcases lt_or_ge (dist3 st.fl.goal.position st.fl.here.position) 1 with hd | hd
  · by_cases hz : dist3 st.fl.goal.position st.fl.here.position = 0
    · rw [hz, mul_zero]; exact le_trans zero_le_one (le_max_left _ _)
    · rw [k2 hd hz, one_mul]; exact le_trans hd.le (le_max_left _ _)
  · rw [k3 hd]; exact le_trans hv1 (le_max_right _ _)

theorem legs_bounded (l : List (GPose ℝ ℝ)) : ∃ L, 0 ≤ L ∧ LegsWithin L l := by
  induction l with
  | nil => exact ⟨0, le_refl _, List.isChain_nil⟩
  | cons a l ih =>
    obtain ⟨L, h0, hL⟩ := ih
    cases l with
    | nil => exact ⟨0, le_refl _, List.isChain_singleton _⟩
    | cons b t =>
      refine ⟨max L (dist3 a.position b.position), le_trans h0 (le_max_left _ _), ?_⟩
      unfold LegsWithin
      rw [List.isChain_cons_cons]
      exact ⟨le_max_right _ _, hL.imp fun _ _ h => le_trans h (le_max_left _ _)⟩

/-- **Non-vacuity of C113**: a run - position, velocity, map, goal, planning - in which a path is found, followed by a flight in which the vehicle covers a quarter of
the way to each position commanded: all hypotheses of `C113_reaches_goal_partial` hold, and at the end the vehicle is in the goal, in which it was not before. -/
example : ∃ (st0 : GlobalSt) (startPos : V3 ℝ) (log : List Entry) (n : ℕ) (S : ℕ → GlobalSt) (out : ℕ → Option (GPose ℝ ℝ)) (mid : ℕ → List Entry)
    (ep : Entry × List Cell),
    Fresh 1 st0 startPos ∧ GoodWorld st0.mem.world ∧ GoodCost st0.conf.cost ∧ Run 1 st0 log (S 0) ∧ (∀ e ∈ log, SaneEvent e.ev) ∧
    lastFound 1 log = some ep ∧ ToEnd 1 ep.2 (S 0).fl ∧ Flight 1 (1 / 4) 1 3 n S out (fun _ => 1 / 4) mid ∧
    ¬ (goalForCycle 1 ep.1.st.gp).1.withinPosition 1 (S 0).gp.pos ∧ (goalForCycle 1 ep.1.st.gp).1.withinPosition 1 (S n).gp.pos := by
  obtain ⟨log, e, st, hrun, hsane, hest, hlf, hw, hconf, hlast, hpos, hblk, hgl, hpath, hhere, hgoal⟩ := ex_planned [] (by decide) (by decide)
  have htrack := C101_on_track_partial 1 exStart exHere exStart_fresh (exGWorld_good _) exGConf_good hrun hsane
  rw [hlf] at htrack
  dsimp only at htrack
  have hto : ToEnd 1 [⟨-2, 0, 3⟩, exHit] st.fl := by
    rcases htrack.2 with h | h
    · exact h
    · unfold ToEnd
      rw [h]
      simp [hgoal]
  have hsp : SpeedsIn 1 3 st.conf.speed := by
    rw [hconf]
    unfold exGConf
    exact ⟨le_refl _, by norm_num, le_refl _, by norm_num⟩
  have hoff : st.conf.speed.speedupHeuristics = false := by rw [hconf]; rfl
  obtain ⟨L, hl0, hL⟩ := legs_bounded (st.fl.goal :: st.fl.path)
  obtain ⟨R, hR⟩ := exists_nat_ge (max (dist3 st.fl.goal.position st.fl.here.position) (L + 3 + max 1 3) / (1 / 4 * 1))
  have hR' : max (dist3 st.fl.goal.position st.fl.here.position) (L + 3 + max 1 3) ≤ R * (1 / 4 * 1) := by
    rwa [div_le_iff₀ (by norm_num)] at hR
  have hg : (goalForCycle 1 e.st.gp).1 = ⟨exGoal, 3, false⟩ := by
    rw [hest]
    unfold goalForCycle
    rw [if_neg]
    · rfl
    · rintro (h | h)
      · unfold GoalCell.withinPosition Cell.manhattan pos exReady exGoal exHere at h
        norm_num [abs_of_pos] at h
      · exact absurd h (by simp [exReady])
  obtain ⟨S, out, mid, hS0, hfl⟩ : ∃ (S : ℕ → GlobalSt) (out : ℕ → Option (GPose ℝ ℝ)) (mid : ℕ → List Entry), S 0 = st ∧
      Flight 1 (1 / 4) 1 3 ((st.fl.path.length + 1) * R + 3) S out (fun _ => 1 / 4) mid :=
    ⟨_, _, _, rfl, flights_exist (sc := 1) (lam := 1 / 4) (by norm_num) (by norm_num) hoff hsp ((st.fl.path.length + 1) * R + 3)⟩
  subst hS0
  refine ⟨exStart, exHere, log ++ [e], ((S 0).fl.path.length + 1) * R + 3, S, out, mid, (e, [⟨-2, 0, 3⟩, exHit]), exStart_fresh, exGWorld_good _, exGConf_good, hrun, hsane, hlf,
    hto, hfl, ?_, ?_⟩
  · dsimp only
    rw [hg, hpos]
    unfold GoalCell.withinPosition Cell.manhattan pos exGoal exHere
    norm_num [abs_of_pos]
  · refine C113_reaches_goal_partial exStart_fresh (exGWorld_good _) exGConf_good hrun hsane hlf hto ?_ hfl (R := R) (N := 3) one_pos (by norm_num) (by norm_num) hl0 hL ?_
      (le_max_left _ _) (le_max_right _ _) hR' ?_ (le_refl _)
    · rw [hg]; norm_num
    · intro k hk
      obtain ⟨pre, hpre⟩ := flight_left hfl one_pos hL k hk.le
      exact flight_short (by norm_num) (by norm_num) (hfl.round k hk) (hfl.speeds k hk) one_pos (legs_suffix hL hpre)
    · rw [hg]; norm_num

/-- **C113 (violated): around the last pose for ever.** Expected: a vehicle that flies to every position commanded gets to the end of its path. But at a speed of 2 m/s
(permitted: 0.1 to 10) a vehicle one metre from the last pose is sent to the point one metre behind it, and from there back again: it answers every command
completely and stays one metre away, whatever the number of rounds. -/
theorem C113_around_goal_violated (n : ℕ) : ∃ (S : ℕ → GlobalSt) (out : ℕ → Option (GPose ℝ ℝ)) (mid : ℕ → List Entry),
    Flight 1 1 2 2 n S out (fun _ => 1) mid ∧ (S 0).fl.path = [] ∧ ∀ k ≤ n, dist3 (S 0).fl.goal.position (S k).fl.here.position = 1 := by
  have hsp : SpeedsIn 2 2 (⟨1 / 2, 2, 2, false, true⟩ : SpeedCfg) := ⟨le_refl _, le_refl _, le_refl _, by norm_num⟩
  have hfl := flights_exist (sc := 1) (lam := 1) zero_le_one le_rfl
    (st := { exStart with conf := { exGConf with speed := ⟨1 / 2, 2, 2, false, true⟩ }, fl := { exStart.fl with here := ⟨⟨3 / 2, 1 / 2, 7 / 2⟩, 0⟩ } }) rfl hsp n
  refine ⟨_, _, _, hfl, rfl, fun k hk => ?_⟩
  have hL : LegsWithin 0 [(⟨exHere, 0⟩ : GPose ℝ ℝ)] := List.isChain_singleton _
  generalize hst : ({ exStart with conf := { exGConf with speed := ⟨1 / 2, 2, 2, false, true⟩ }, fl := { exStart.fl with here := ⟨⟨3 / 2, 1 / 2, 7 / 2⟩, 0⟩ } } : GlobalSt) = st at *
  have hg0 : st.fl.goal = ⟨exHere, 0⟩ ∧ st.fl.path = [] := by rw [← hst]; exact ⟨rfl, rfl⟩
  have hLs : LegsWithin 0 (st.fl.goal :: st.fl.path) := by rw [hg0.1, hg0.2]; exact hL
  have key : ∀ k ≤ n, dist3 st.fl.goal.position ((afterRound 1 1)^[k] st).fl.here.position = 1 ∧ ((afterRound 1 1)^[k] st).fl.goal = st.fl.goal ∧
      ((afterRound 1 1)^[k] st).fl.path = [] := by
    intro k
    induction k with
    | zero =>
      intro _
      refine ⟨?_, rfl, hg0.2⟩
      rw [← hst]
      show dist3 exHere ⟨3 / 2, 1 / 2, 7 / 2⟩ = 1
      unfold dist3 V3.norm V3.dot V3.minus exHere
      norm_num
    | succ k ih =>
      intro hk
      obtain ⟨i1, i2, i3⟩ := ih (by omega)
      obtain ⟨v, c, hv0, hv1, k0, k2, k3, k4, k5, _, k7⟩ := round_spec (L := 0) (hfl.round k (by omega)) (hfl.speeds k (by omega)) (by norm_num)
        (by rw [i2, i3]; exact List.isChain_singleton _)
      rw [i2] at k3 k5
      have hv : v = 2 := le_antisymm hv1 hv0
      have hc : c = 2 := by
        have := k3 (by rw [i1])
        rw [i1, mul_one] at this
        rw [this, hv]
      refine ⟨?_, ?_⟩
      · rw [k5, i1, hc]
        norm_num
      · rcases k7 with ⟨j1, j2, _⟩ | ⟨pre, j1, j2, _⟩
        · exact ⟨j1.trans i2, j2.trans i3⟩
        · rw [i3] at j2
          have := congrArg List.length j2
          cases pre with
          | nil => exact absurd rfl j1
          | cons x y => simp at this
  exact (key k hk).1

end

end Global
end Avoidance
