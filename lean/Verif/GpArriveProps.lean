import Verif.GpRunProps
import Verif.GpPathProps
import Mathlib.Tactic.Linarith
import Mathlib.Tactic.NormNum

/-!
# C113: a vehicle that follows the setpoints of the global planner flies the path to its end

The global planner node (`gStep`, `GpRun`) in a closed loop with a vehicle, between two planning cycles: each command of the node is answered by
position messages on the way from the vehicle to the position commanded. Velocities, maps, obstacles, goals and reconfigurations may come at any moment.
-/

namespace Avoidance
namespace Global

/-! ## Specification -/

/-- **Specification**: the point after the part `f` of the way from `a` to `b`. -/
noncomputable def partWay (a b : V3 ℝ) (f : ℝ) : V3 ℝ := a.plus (V3.smul f (b.minus a))

/-- **Specification**: a stretch of a run of the node, with its record. -/
inductive Stretch (sc : ℝ) : GlobalSt → List Entry → GlobalSt → Prop
  | nil (st : GlobalSt) : Stretch sc st [] st
  | cons {st st1 st' ev out es} (hg : Genuine sc st ev) (hs : gStep sc st ev = some (st1, out)) (h : Stretch sc st1 es st') :
      Stretch sc st (⟨st, ev, out⟩ :: es) st'

/-- **Specification**: the position the vehicle is sent to; if the command is not a number it stays where it is. -/
def sentTo (st : GlobalSt) : Option (GPose ℝ ℝ) → V3 ℝ
  | some q => q.position
  | none => st.fl.here.position

/-- **Specification**: a command and what follows it up to the next command (not included): no planning cycle; every position reported is on the way from
where the vehicle was at the command to the position commanded, and the vehicle does not look exactly backwards; the last one is after at least the part `lam`
of that way. The part covered is `f`. -/
structure FlownRound (sc lam : ℝ) (st : GlobalSt) (out : Option (GPose ℝ ℝ)) (f : ℝ) (mid : List Entry) (st' : GlobalSt) : Prop where
  run : Stretch sc st (⟨st, .command, some out⟩ :: mid) st'
  quiet : ∀ e ∈ mid, e.ev ≠ .command ∧ ∀ f asked, e.ev ≠ .plan f asked
  onWay : ∀ e ∈ mid, ∀ p, e.ev = .position p → facing e.st.fl.goal.orientation p.orientation ∧
    ∃ g, 0 ≤ g ∧ g ≤ 1 ∧ p.position = partWay st.fl.here.position (sentTo st out) g
  heard : ∃ e ∈ mid, ∃ p, e.ev = .position p
  part : lam ≤ f ∧ f ≤ 1
  moved : st'.fl.here.position = partWay st.fl.here.position (sentTo st out) f

/-- **Specification**: speeds between `v0` and `v1`. -/
structure SpeedsIn (v0 v1 : ℝ) (C : SpeedCfg) : Prop where
  low : v0 ≤ C.defaultSpeed
  mid : C.defaultSpeed ≤ C.maxSpeed
  high : C.maxSpeed ≤ v1
  thr : C.threshold ≤ 1

/-- **Specification**: consecutive poses are at most `L` apart. -/
def LegsWithin (L : ℝ) (l : List (GPose ℝ ℝ)) : Prop := l.IsChain (fun a b => dist3 a.position b.position ≤ L)

/-! ## One command -/

theorem dist3_triangle (p q r : V3 ℝ) : dist3 p r ≤ dist3 p q + dist3 q r := by
  rw [dist3_straight, dist3_straight, dist3_straight]; exact straight_triangle p q r

theorem dist3_comm (p q : V3 ℝ) : dist3 p q = dist3 q p := by
  rw [dist3_straight, dist3_straight]; unfold straight; congr 1; ring

theorem part_left (a b : V3 ℝ) (f g : ℝ) : dist3 (partWay a b f) (partWay a b g) = |g - f| * dist3 a b := by
  unfold dist3
  rw [← V3.norm_smul]
  congr 1
  unfold partWay V3.plus V3.minus V3.smul
  simp only [V3.mk.injEq]
  refine ⟨by ring, by ring, by ring⟩

theorem part_zero (a b : V3 ℝ) : partWay a b 0 = a := by
  unfold partWay V3.plus V3.smul; cases a; simp

theorem part_same (a : V3 ℝ) (f : ℝ) : partWay a a f = a := by
  unfold partWay V3.plus V3.smul V3.minus; cases a; simp

theorem command_spec {sc : ℝ} {st st1 : GlobalSt} {o : Option (Option (GPose ℝ ℝ))} (h : gStep sc st .command = some (st1, o)) :
    ∃ r v, commandedSpeed st.conf.speed r = some v ∧ st1.fl = { st.fl with speed := v } ∧ st1.gp = st.gp ∧ st1.conf = st.conf ∧
      o = some ((setpoint st.fl.goal.position st.fl.here.position v).map fun p => ⟨p, st.fl.goal.orientation⟩) := by
  unfold gStep commandTick at h
  dsimp only at h
  generalize (if st.conf.speed.speedupHeuristics = true then cachedRisk sc st.mem (cellOf sc st.fl.here.position) else some (0, st.mem)) = x at h
  cases x with
  | none => exact absurd h (by simp)
  | some r =>
    dsimp only at h
    cases hv : commandedSpeed st.conf.speed r.1 with
    | none => rw [hv] at h; exact absurd h (by simp)
    | some v =>
      rw [hv] at h
      dsimp only [Option.map_some] at h
      obtain ⟨rfl, rfl⟩ := Prod.mk.inj (Option.some.inj h)
      exact ⟨r.1, v, hv, rfl, rfl, rfl, rfl⟩

theorem speed_range {v0 v1 : ℝ} {C : SpeedCfg} (hC : SpeedsIn v0 v1 C) {r v : ℝ} (h : commandedSpeed C r = some v) : v0 ≤ v ∧ v ≤ v1 := by
  by_cases hr : 0 ≤ r
  · obtain ⟨w, hw, h1, h2, _⟩ := C77_speed C hC.mid hC.thr r hr
    obtain rfl := Option.some.inj (h.symm.trans hw)
    exact ⟨le_trans hC.low h1, le_trans h2 hC.high⟩
  · unfold commandedSpeed at h
    split at h
    · rw [if_pos (not_le.mp hr)] at h; exact absurd h (by simp)
    · obtain rfl := Option.some.inj h
      exact ⟨hC.low, le_trans hC.mid hC.high⟩

/-- After a part `f` of the way to the position commanded. -/
theorem sent_geometry (goal here : V3 ℝ) (v : ℝ) (hv : 0 ≤ v) :
    ∃ k, 0 ≤ k ∧ (∀ f, dist3 goal (partWay here (((setpoint goal here v).map fun p => p).getD here) f) = |1 - f * k| * dist3 goal here) ∧
      (dist3 goal here < 1 → dist3 goal here ≠ 0 → k = 1) ∧ (1 ≤ dist3 goal here → k * dist3 goal here = v) ∧
      dist3 here (((setpoint goal here v).map fun p => p).getD here) = k * dist3 goal here := by
  have hd : dist3 goal here = (goal.minus here).norm := by rw [dist3_comm]; rfl
  have hd0 := V3.norm_nonneg (goal.minus here)
  by_cases h0 : (goal.minus here).norm = 0
  · have e : ((setpoint goal here v).map fun p => p).getD here = here := by
      unfold setpoint
      dsimp only
      rw [if_pos h0]
      rfl
    rw [e]
    refine ⟨0, le_refl _, fun f => ?_, fun _ h => absurd (hd.trans h0) h, fun h => by rw [hd, h0] at h; linarith, ?_⟩
    · rw [part_same]; simp
    · rw [zero_mul, dist3_straight, straight_self]
  · have hpos : 0 < (goal.minus here).norm := lt_of_le_of_ne hd0 (Ne.symm h0)
    have key : ∀ w : ℝ, 0 ≤ w → setpoint goal here v = some (here.plus (V3.smul w (V3.smul (1 / (goal.minus here).norm) (goal.minus here)))) →
        (0 ≤ w / (goal.minus here).norm) ∧
        (∀ f, dist3 goal (partWay here (((setpoint goal here v).map fun p => p).getD here) f) = |1 - f * (w / (goal.minus here).norm)| * dist3 goal here) ∧
        dist3 here (((setpoint goal here v).map fun p => p).getD here) = w / (goal.minus here).norm * dist3 goal here := by
      intro w hw hs
      refine ⟨div_nonneg hw hpos.le, fun f => ?_, ?_⟩
      · rw [hs]
        dsimp only [Option.map_some, Option.getD_some]
        rw [dist3_comm goal (partWay _ _ _), hd, ← V3.norm_smul]
        unfold dist3
        congr 1
        unfold partWay V3.plus V3.minus V3.smul
        simp only [V3.mk.injEq]
        refine ⟨by ring, by ring, by ring⟩
      · rw [hs]
        dsimp only [Option.map_some, Option.getD_some]
        rw [hd, show w / (goal.minus here).norm = |w / (goal.minus here).norm| from (abs_of_nonneg (div_nonneg hw hpos.le)).symm, ← V3.norm_smul]
        unfold dist3
        congr 1
        unfold V3.plus V3.minus V3.smul
        simp only [V3.mk.injEq]
        refine ⟨by ring, by ring, by ring⟩
    by_cases h1 : (goal.minus here).norm < 1
    · obtain ⟨k1, k2, k3⟩ := key (goal.minus here).norm hd0 (by unfold setpoint; dsimp only; rw [if_neg h0, if_pos h1])
      exact ⟨_, k1, k2, fun _ _ => div_self h0, fun h => absurd (hd ▸ h) (not_le.mpr h1), k3⟩
    · obtain ⟨k1, k2, k3⟩ := key v hv (by unfold setpoint; dsimp only; rw [if_neg h0, if_neg h1])
      refine ⟨_, k1, k2, fun h => absurd (hd ▸ h) h1, fun _ => ?_, k3⟩
      rw [hd]
      exact div_mul_cancel₀ v h0

/-! ## Between two commands -/

theorem other_event {sc : ℝ} {st st1 : GlobalSt} {ev : GEvent} {o : Option (Option (GPose ℝ ℝ))} (h : gStep sc st ev = some (st1, o)) (hc : ev ≠ .command)
    (hp : ∀ f asked, ev ≠ .plan f asked) (hq : ∀ p, ev ≠ .position p) : st1.fl = st.fl ∧ st1.gp.pos = st.gp.pos := by
  cases ev with
  | position p => exact absurd rfl (hq p)
  | velocity v =>
    obtain ⟨rfl, _⟩ := Prod.mk.inj (Option.some.inj h)
    exact ⟨rfl, rfl⟩
  | map t1 t2 t res =>
    unfold gStep at h
    dsimp only at h
    split at h
    · rw [Option.map_eq_some_iff] at h
      obtain ⟨m, _, hm⟩ := h
      obtain ⟨rfl, _⟩ := Prod.mk.inj hm
      exact ⟨rfl, rfl⟩
    · obtain ⟨rfl, _⟩ := Prod.mk.inj (Option.some.inj h)
      exact ⟨rfl, rfl⟩
  | obstacles cs =>
    obtain ⟨rfl, _⟩ := Prod.mk.inj (Option.some.inj h)
    exact ⟨rfl, rfl⟩
  | reconfigure C flow explore maxIter =>
    obtain ⟨rfl, _⟩ := Prod.mk.inj (Option.some.inj h)
    exact ⟨rfl, rfl⟩
  | fcu valid p =>
    obtain ⟨rfl, _⟩ := Prod.mk.inj (Option.some.inj h)
    refine ⟨rfl, ?_⟩
    show (fcuGoal sc st.gp valid p).pos = _
    unfold fcuGoal
    dsimp only
    split <;> rfl
  | click x y =>
    obtain ⟨rfl, _⟩ := Prod.mk.inj (Option.some.inj h)
    exact ⟨rfl, rfl⟩
  | plan f asked => exact absurd rfl (hp f asked)
  | command => exact absurd rfl hc

theorem position_event {sc : ℝ} {st st1 : GlobalSt} {p : GPose ℝ ℝ} {o : Option (Option (GPose ℝ ℝ))} (h : gStep sc st (.position p) = some (st1, o)) :
    st1.fl = followPosition st.fl p ∧ st1.gp.pos = p.position := by
  obtain ⟨rfl, _⟩ := Prod.mk.inj (Option.some.inj h)
  exact ⟨rfl, rfl⟩

theorem follow_here (st : FollowSt) (p : GPose ℝ ℝ) : (followPosition st p).here = p ∧ (followPosition st p).speed = st.speed := by
  unfold followPosition
  dsimp only
  split
  · exact ⟨rfl, rfl⟩
  · split <;> exact ⟨rfl, rfl⟩

/-- If a goal is kept although others are to come, the vehicle is not close to it. -/
theorem kept_far {st : FollowSt} {p : GPose ℝ ℝ} (hf : facing st.goal.orientation p.orientation) (hp : st.path ≠ [])
    (hk : (followPosition st p).path = st.path) : st.speed ≤ dist3 (followPosition st p).goal.position p.position := by
  by_contra hlt
  rw [not_le] at hlt
  unfold followPosition at hk hlt
  dsimp only at hk hlt
  cases hq : st.path with
  | nil => exact hp hq
  | cons a l =>
    rw [hq] at hk hlt
    dsimp only at hk hlt
    split at hk
    · have := congrArg List.length hk
      simp at this
    · rename_i hn
      rw [if_neg hn] at hlt
      exact hn ⟨hlt, hf⟩

/-- **The poses still to come, between two commands.** `H`: a position was heard since the command; `F`: one was heard since the current goal was set. -/
theorem mid_spec {sc : ℝ} {a b : V3 ℝ} {L M : ℝ} {st' : GlobalSt} : ∀ {mid : List Entry} {st : GlobalSt} (H F : Prop), Stretch sc st mid st' →
    (∀ e ∈ mid, e.ev ≠ .command ∧ ∀ f asked, e.ev ≠ .plan f asked) →
    (∀ e ∈ mid, ∀ p, e.ev = .position p → facing e.st.fl.goal.orientation p.orientation ∧ ∃ g, 0 ≤ g ∧ g ≤ 1 ∧ p.position = partWay a b g) →
    (∃ g, 0 ≤ g ∧ g ≤ 1 ∧ st.fl.here.position = partWay a b g) → dist3 a b ≤ M → LegsWithin L (st.fl.goal :: st.fl.path) →
    (H → st.gp.pos = st.fl.here.position) →
    (F → st.fl.path ≠ [] → st.fl.speed ≤ dist3 st.fl.goal.position st.fl.here.position) →
    st'.fl.speed = st.fl.speed ∧ (∃ g, 0 ≤ g ∧ g ≤ 1 ∧ st'.fl.here.position = partWay a b g) ∧
    (H ∨ (∃ e ∈ mid, ∃ p, e.ev = .position p) → st'.gp.pos = st'.fl.here.position) ∧
    ((st'.fl.goal = st.fl.goal ∧ st'.fl.path = st.fl.path ∧
        (F ∨ (∃ e ∈ mid, ∃ p, e.ev = .position p) → st.fl.path ≠ [] → st.fl.speed ≤ dist3 st.fl.goal.position st'.fl.here.position)) ∨
      (∃ pre, pre ≠ [] ∧ st.fl.goal :: st.fl.path = pre ++ st'.fl.goal :: st'.fl.path ∧
        dist3 st'.fl.goal.position st'.fl.here.position ≤ L + st.fl.speed + M)) := by
  intro mid
  induction mid with
  | nil =>
    intro st H F h _ _ hin _ _ hH hF
    cases h
    have e : ∀ {H q : Prop}, (H ∨ (∃ e ∈ ([] : List Entry), ∃ p, e.ev = .position p)) → (H → q) → q := by
      rintro H q (h | ⟨e, he, _⟩) hq
      · exact hq h
      · exact absurd he (by simp)
    exact ⟨rfl, hin, fun h => e h hH, Or.inl ⟨rfl, rfl, fun h hp => e h (fun h => hF h hp)⟩⟩
  | cons e mid ih =>
    intro st H F h hq how hin hM hL hH hF
    cases h with
    | @cons _ st1 _ ev out _ hg hs hrest =>
    have hq' := fun x hx => hq x (List.mem_cons_of_mem _ hx)
    have how' := fun x hx => how x (List.mem_cons_of_mem _ hx)
    by_cases hpe : ∃ p, ev = .position p
    · obtain ⟨p, rfl⟩ := hpe
      obtain ⟨hfl, hgp⟩ := position_event hs
      obtain ⟨hh, hsp⟩ := follow_here st.fl p
      obtain ⟨hface, gp, g0, g1, hpw⟩ := how _ (List.mem_cons_self ..) p rfl
      dsimp only at hface
      have hsp1 : st1.fl.speed = st.fl.speed := by rw [hfl, hsp]
      have hhere1 : st1.fl.here = p := by rw [hfl, hh]
      have hin1 : ∃ g, 0 ≤ g ∧ g ≤ 1 ∧ st1.fl.here.position = partWay a b g := ⟨gp, g0, g1, by rw [hhere1, hpw]⟩
      have hgp1 : st1.gp.pos = st1.fl.here.position := by rw [hgp, hhere1]
      have hcl : ∀ {g : ℝ}, 0 ≤ g → g ≤ 1 → dist3 p.position (partWay a b g) ≤ M := by
        intro g k0 k1
        rw [hpw, part_left]
        have : |g - gp| ≤ 1 := by rw [abs_le]; constructor <;> linarith
        have h0 := dist3_nonneg a b
        nlinarith
      rcases followPosition_cases st.fl p with ⟨c1, c2, _⟩ | ⟨c1, _, c3, _⟩
      · have hL1 : LegsWithin L (st1.fl.goal :: st1.fl.path) := by rw [hfl, c1, c2]; exact hL
        have hT : True → st1.fl.path ≠ [] → st1.fl.speed ≤ dist3 st1.fl.goal.position st1.fl.here.position := by
          intro _ hp
          rw [hsp1, hhere1, hfl]
          exact kept_far hface (by rw [hfl, c2] at hp; exact hp) c2
        obtain ⟨i1, i2, i3, i4⟩ := ih True True hrest hq' how' hin1 hM hL1 (fun _ => hgp1) hT
        rw [hsp1] at i1 i4
        refine ⟨i1, i2, fun _ => i3 (Or.inl trivial), ?_⟩
        rw [hfl, c1, c2] at i4
        rcases i4 with ⟨j1, j2, j3⟩ | j
        · exact Or.inl ⟨j1, j2, fun _ => j3 (Or.inl trivial)⟩
        · exact Or.inr j
      · have c3' : st.fl.path = st1.fl.goal :: st1.fl.path := by rw [hfl]; exact c3
        have hL1 : LegsWithin L (st1.fl.goal :: st1.fl.path) := by
          unfold LegsWithin at hL ⊢
          rw [c3'] at hL
          exact hL.tail
        have hleg : dist3 st.fl.goal.position st1.fl.goal.position ≤ L := by
          unfold LegsWithin at hL
          rw [c3', List.isChain_cons_cons] at hL
          exact hL.1
        obtain ⟨i1, ⟨gl, i2a, i2b, i2c⟩, i3, i4⟩ := ih True False hrest hq' how' hin1 hM hL1 (fun _ => hgp1) (fun h => h.elim)
        rw [hsp1] at i1 i4
        refine ⟨i1, ⟨gl, i2a, i2b, i2c⟩, fun _ => i3 (Or.inl trivial), Or.inr ?_⟩
        rcases i4 with ⟨j1, j2, _⟩ | ⟨pre, j1, j2, j3⟩
        · refine ⟨[st.fl.goal], by simp, by rw [j1, j2, c3']; rfl, ?_⟩
          rw [j1, i2c]
          have t1 := dist3_triangle st1.fl.goal.position st.fl.goal.position (partWay a b gl)
          have t2 := dist3_triangle st.fl.goal.position p.position (partWay a b gl)
          have t3 := hcl i2a i2b
          rw [dist3_comm st1.fl.goal.position st.fl.goal.position] at t1
          linarith
        · exact ⟨st.fl.goal :: pre, by simp, by rw [c3', j2]; rfl, j3⟩
    · obtain ⟨k1, k2⟩ := other_event hs (hq _ (List.mem_cons_self ..)).1 (hq _ (List.mem_cons_self ..)).2 (fun p hp => hpe ⟨p, hp⟩)
      obtain ⟨i1, i2, i3, i4⟩ := ih H F hrest hq' how' (by rw [k1]; exact hin) hM (by rw [k1]; exact hL) (by rw [k1, k2]; exact hH) (by rw [k1]; exact hF)
      have he : (∃ e ∈ (⟨st, ev, out⟩ :: mid : List Entry), ∃ p, e.ev = .position p) ↔ ∃ e ∈ mid, ∃ p, e.ev = .position p := by
        constructor
        · rintro ⟨x, hx, p, hp⟩
          rcases List.mem_cons.mp hx with rfl | hx
          · exact absurd ⟨p, hp⟩ hpe
          · exact ⟨x, hx, p, hp⟩
        · rintro ⟨x, hx, p, hp⟩
          exact ⟨x, List.mem_cons_of_mem _ hx, p, hp⟩
      rw [he]
      rw [k1] at i1 i4
      exact ⟨i1, i2, i3, i4⟩

/-! ## One round -/

/-- **One round**: with the speed `v` of its command; the goal is kept, with the vehicle `|1 - f k|` times as far from it, or others are next. -/
theorem round_spec {sc lam v0 v1 L : ℝ} {st st' : GlobalSt} {out : Option (GPose ℝ ℝ)} {f : ℝ} {mid : List Entry} (h : FlownRound sc lam st out f mid st')
    (hC : SpeedsIn v0 v1 st.conf.speed) (h0 : 0 < v0) (hL : LegsWithin L (st.fl.goal :: st.fl.path)) :
    ∃ v k, v0 ≤ v ∧ v ≤ v1 ∧ 0 ≤ k ∧ (dist3 st.fl.goal.position st.fl.here.position < 1 → dist3 st.fl.goal.position st.fl.here.position ≠ 0 → k = 1) ∧
      (1 ≤ dist3 st.fl.goal.position st.fl.here.position → k * dist3 st.fl.goal.position st.fl.here.position = v) ∧
      dist3 st.fl.here.position (sentTo st out) = k * dist3 st.fl.goal.position st.fl.here.position ∧
      dist3 st.fl.goal.position st'.fl.here.position = |1 - f * k| * dist3 st.fl.goal.position st.fl.here.position ∧
      st'.gp.pos = st'.fl.here.position ∧
      ((st'.fl.goal = st.fl.goal ∧ st'.fl.path = st.fl.path ∧ (st.fl.path ≠ [] → v ≤ dist3 st.fl.goal.position st'.fl.here.position)) ∨
        (∃ pre, pre ≠ [] ∧ st.fl.goal :: st.fl.path = pre ++ st'.fl.goal :: st'.fl.path ∧
          dist3 st'.fl.goal.position st'.fl.here.position ≤ L + v1 + max 1 v1)) := by
  have hrun := h.run
  cases hrun with
  | @cons _ st1 _ _ _ _ hg hs hrest =>
  obtain ⟨r, v, hv, hfl, hgp, hconf, ho⟩ := command_spec hs
  obtain ⟨hv0, hv1⟩ := speed_range hC hv
  have hvp : 0 ≤ v := le_trans h0.le hv0
  have hsent : sentTo st out = ((setpoint st.fl.goal.position st.fl.here.position v).map fun p => p).getD st.fl.here.position := by
    rw [Option.some.inj ho]
    cases setpoint st.fl.goal.position st.fl.here.position v <;> rfl
  obtain ⟨k, k0, k1, k2, k3, k4⟩ := sent_geometry st.fl.goal.position st.fl.here.position v hvp
  rw [← hsent] at k1 k4
  have hM : dist3 st.fl.here.position (sentTo st out) ≤ max 1 v1 := by
    rw [k4]
    have d0 := dist3_nonneg st.fl.goal.position st.fl.here.position
    rcases lt_or_ge (dist3 st.fl.goal.position st.fl.here.position) 1 with hd | hd
    · by_cases hz : dist3 st.fl.goal.position st.fl.here.position = 0
      · rw [hz, mul_zero]; exact le_trans zero_le_one (le_max_left _ _)
      · rw [k2 hd hz, one_mul]; exact le_trans hd.le (le_max_left _ _)
    · rw [k3 hd]; exact le_trans hv1 (le_max_right _ _)
  have e1 : st1.fl.goal = st.fl.goal := by rw [hfl]
  have e2 : st1.fl.path = st.fl.path := by rw [hfl]
  have e3 : st1.fl.here = st.fl.here := by rw [hfl]
  have e4 : st1.fl.speed = v := by rw [hfl]
  obtain ⟨_, _, m3, m4⟩ := mid_spec (a := st.fl.here.position) (b := sentTo st out) (L := L) (M := max 1 v1) False False hrest h.quiet h.onWay
    ⟨0, le_refl _, zero_le_one, by rw [e3, part_zero]⟩ hM (by rw [e1, e2]; exact hL) (fun h => h.elim) (fun h => h.elim)
  rw [e1, e2, e4] at m4
  refine ⟨v, k, hv0, hv1, k0, k2, k3, k4, by rw [h.moved, k1], m3 (Or.inr h.heard), ?_⟩
  rcases m4 with ⟨j1, j2, j3⟩ | ⟨pre, j1, j2, j3⟩
  · exact Or.inl ⟨j1, j2, j3 (Or.inr h.heard)⟩
  · exact Or.inr ⟨pre, j1, j2, by linarith⟩

/-- **Progress of a round**: if other goals are to come, the goal is kept and the vehicle is at least `lam * v0` closer to it, still at least `v0` away; or the next
goals are on. -/
theorem round_progress {sc lam v0 v1 L : ℝ} {st st' : GlobalSt} {out : Option (GPose ℝ ℝ)} {f : ℝ} {mid : List Entry} (h : FlownRound sc lam st out f mid st')
    (hC : SpeedsIn v0 v1 st.conf.speed) (h0 : 0 < v0) (hlam : 0 < lam) (hL : LegsWithin L (st.fl.goal :: st.fl.path)) (hp : st.fl.path ≠ []) :
    (st'.fl.goal = st.fl.goal ∧ st'.fl.path = st.fl.path ∧ v0 ≤ dist3 st.fl.goal.position st'.fl.here.position ∧
      dist3 st.fl.goal.position st'.fl.here.position ≤ dist3 st.fl.goal.position st.fl.here.position - lam * v0) ∨
    (∃ pre, pre ≠ [] ∧ st.fl.goal :: st.fl.path = pre ++ st'.fl.goal :: st'.fl.path ∧
      dist3 st'.fl.goal.position st'.fl.here.position ≤ L + v1 + max 1 v1) := by
  obtain ⟨v, k, hv0, hv1, k0, k2, k3, _, k5, _, k7⟩ := round_spec h hC h0 hL
  rcases k7 with ⟨j1, j2, j3⟩ | j
  · left
    have j3 := j3 hp
    refine ⟨j1, j2, le_trans hv0 j3, ?_⟩
    obtain ⟨f0, f1⟩ := h.part
    have d0 := dist3_nonneg st.fl.goal.position st.fl.here.position
    rw [k5] at j3 ⊢
    generalize dist3 st.fl.goal.position st.fl.here.position = d at *
    rcases lt_or_ge d 1 with hd | hd
    · by_cases hz : d = 0
      · rw [hz, mul_zero] at j3; linarith
      · rw [k2 hd hz, mul_one, abs_of_nonneg (by linarith)] at j3 ⊢
        have q1 : v0 ≤ d := by nlinarith
        have q2 := mul_le_mul f0 q1 h0.le (by linarith)
        linarith
    · have hk := k3 hd
      have e : |1 - f * k| * d = |d - f * v| := by
        rw [← hk, ← abs_of_nonneg d0, ← abs_mul, abs_of_nonneg d0]
        congr 1
        ring
      rw [e] at j3 ⊢
      have hvd : f * v ≤ d := by
        by_contra hlt
        rw [not_le] at hlt
        rw [abs_of_neg (by linarith)] at j3
        nlinarith
      rw [abs_of_nonneg (by linarith)]
      nlinarith
  · exact Or.inr j

/-! ## C113 -/

/-- **Specification**: `n` rounds one after the other, with the states at the commands, the outputs, the parts flown and what happened in between. -/
structure Flight (sc lam v0 v1 : ℝ) (n : ℕ) (S : ℕ → GlobalSt) (out : ℕ → Option (GPose ℝ ℝ)) (part : ℕ → ℝ) (mid : ℕ → List Entry) : Prop where
  round : ∀ k < n, FlownRound sc lam (S k) (out k) (part k) (mid k) (S (k + 1))
  speeds : ∀ k < n, SpeedsIn v0 v1 (S k).conf.speed

theorem legs_suffix {L : ℝ} {l pre l' : List (GPose ℝ ℝ)} (h : LegsWithin L l) (e : l = pre ++ l') : LegsWithin L l' := by
  unfold LegsWithin at h ⊢
  rw [e] at h
  exact h.right_of_append

/-- what is left of the path -/
theorem flight_left {sc lam v0 v1 L : ℝ} {n : ℕ} {S : ℕ → GlobalSt} {out : ℕ → Option (GPose ℝ ℝ)} {part : ℕ → ℝ} {mid : ℕ → List Entry}
    (fl : Flight sc lam v0 v1 n S out part mid) (h0 : 0 < v0) (hL : LegsWithin L ((S 0).fl.goal :: (S 0).fl.path)) :
    ∀ k ≤ n, ∃ pre, (S 0).fl.goal :: (S 0).fl.path = pre ++ (S k).fl.goal :: (S k).fl.path := by
  intro k
  induction k with
  | zero => intro _; exact ⟨[], rfl⟩
  | succ k ih =>
    intro hk
    obtain ⟨pre, hpre⟩ := ih (by omega)
    obtain ⟨_, _, _, _, _, _, _, _, _, _, h7⟩ := round_spec (fl.round k (by omega)) (fl.speeds k (by omega)) h0 (legs_suffix hL hpre)
    rcases h7 with ⟨j1, j2, _⟩ | ⟨pre', _, j2, _⟩
    · exact ⟨pre, by rw [j1, j2]; exact hpre⟩
    · exact ⟨pre ++ pre', by rw [List.append_assoc, ← j2]; exact hpre⟩

/-- **C113, the path is flown to its end.** The global planner node in a closed loop with a vehicle that flies at least the part `lam` of the way to each position
commanded: if the speeds are between `v0` and `v1`, the legs of the path at most `L` and the vehicle at first at most `D` from its goal, then in every round the
poses to come are the rest of the path, and after `R` rounds for each pose still to come (`R * lam * v0 ≥ D`, `L + v1 + max 1 v1`) the goal is the last pose of the
path - whatever maps, obstacles, goals, velocities and reconfigurations arrive on the way. -/
theorem C113_path_is_flown_partial {sc lam v0 v1 L D : ℝ} {n R : ℕ} {S : ℕ → GlobalSt} {out : ℕ → Option (GPose ℝ ℝ)} {part : ℕ → ℝ} {mid : ℕ → List Entry}
    (fl : Flight sc lam v0 v1 n S out part mid) (h0 : 0 < v0) (hv : v0 ≤ v1) (hlam : 0 < lam) (hL : LegsWithin L ((S 0).fl.goal :: (S 0).fl.path))
    (hD : dist3 (S 0).fl.goal.position (S 0).fl.here.position ≤ D) (hLD : L + v1 + max 1 v1 ≤ D) (hR : D ≤ R * (lam * v0)) (hn : (S 0).fl.path.length * R ≤ n) :
    (∀ k ≤ n, ((S k).fl.goal :: (S k).fl.path) <:+ ((S 0).fl.goal :: (S 0).fl.path)) ∧
    (S n).fl.path = [] ∧ some (S n).fl.goal = ((S 0).fl.goal :: (S 0).fl.path).getLast? := by
  have left := flight_left fl h0 hL
  have hlv : 0 < lam * v0 := mul_pos hlam h0
  have key : ∀ k ≤ n, (S k).fl.path = [] ∨ ∃ j : ℕ, dist3 (S k).fl.goal.position (S k).fl.here.position ≤ D - j * (lam * v0) ∧
      (j = 0 ∨ v0 ≤ dist3 (S k).fl.goal.position (S k).fl.here.position) ∧ k + (S k).fl.path.length * R ≤ (S 0).fl.path.length * R + j := by
    intro k
    induction k with
    | zero => intro _; exact Or.inr ⟨0, by simpa using hD, Or.inl rfl, by omega⟩
    | succ k ih =>
      intro hk
      obtain ⟨pre, hpre⟩ := left k (by omega)
      have hr := fl.round k (by omega)
      rcases ih (by omega) with he | ⟨j, j1, j2, j3⟩
      · left
        obtain ⟨_, _, _, _, _, _, _, _, _, _, h7⟩ := round_spec hr (fl.speeds k (by omega)) h0 (legs_suffix hL hpre)
        rcases h7 with ⟨_, a2, _⟩ | ⟨pre', a1, a2, _⟩
        · rw [a2, he]
        · rw [he] at a2
          have := congrArg List.length a2
          cases pre' with
          | nil => exact absurd rfl a1
          | cons x y => simp at this
      · by_cases hp : (S k).fl.path = []
        · left
          obtain ⟨_, _, _, _, _, _, _, _, _, _, h7⟩ := round_spec hr (fl.speeds k (by omega)) h0 (legs_suffix hL hpre)
          rcases h7 with ⟨_, a2, _⟩ | ⟨pre', a1, a2, _⟩
          · rw [a2, hp]
          · rw [hp] at a2
            have := congrArg List.length a2
            cases pre' with
            | nil => exact absurd rfl a1
            | cons x y => simp at this
        · right
          rcases round_progress hr (fl.speeds k (by omega)) h0 hlam (legs_suffix hL hpre) hp with ⟨a1, a2, a3, a4⟩ | ⟨pre', a1, a2, a3⟩
          · refine ⟨j + 1, ?_, Or.inr (by rw [a1]; exact a3), by rw [a2]; omega⟩
            rw [a1]
            push_cast
            linarith
          · refine ⟨0, ?_, Or.inl rfl, ?_⟩
            · simp only [Nat.cast_zero, zero_mul, sub_zero]
              linarith
            · have hlen := congrArg List.length a2
              rw [List.length_append, List.length_cons, List.length_cons] at hlen
              have hpl := List.length_pos_iff.mpr a1
              have hjR : j < R ∨ j = 0 := by
                rcases j2 with j2 | j2
                · exact Or.inr j2
                · left
                  have : (j : ℝ) * (lam * v0) < R * (lam * v0) := by linarith
                  exact_mod_cast lt_of_mul_lt_mul_right this hlv.le
              have hRpos : 0 < R := by
                rcases Nat.eq_zero_or_pos R with h | h
                · rw [h] at hR
                  have := le_max_left (1 : ℝ) v1
                  have hLn : 0 ≤ L := by
                    have hs := legs_suffix hL hpre
                    unfold LegsWithin at hs
                    cases hq : (S k).fl.path with
                    | nil => exact absurd hq hp
                    | cons b t =>
                      rw [hq, List.isChain_cons_cons] at hs
                      exact le_trans (dist3_nonneg _ _) hs.1
                  simp only [Nat.cast_zero, zero_mul] at hR
                  linarith
                · exact h
              have hle : (S (k + 1)).fl.path.length + 1 ≤ (S k).fl.path.length := by omega
              have := Nat.mul_le_mul_right R hle
              rw [Nat.add_mul, Nat.one_mul] at this
              omega
  refine ⟨fun k hk => ?_, ?_⟩
  · obtain ⟨pre, hpre⟩ := left k hk
    exact ⟨pre, hpre.symm⟩
  · have hend : (S n).fl.path = [] := by
      rcases key n le_rfl with h | ⟨j, j1, j2, j3⟩
      · exact h
      · by_contra hp
        have hpos := List.length_pos_iff.mpr hp
        have h1 : R ≤ (S n).fl.path.length * R := Nat.le_mul_of_pos_left R hpos
        have hRj : R ≤ j := by omega
        rcases j2 with j2 | j2
        · have hR0 : R = 0 := by omega
          rw [hR0, Nat.cast_zero, zero_mul] at hR
          obtain ⟨pre, hpre⟩ := left n le_rfl
          have hs := legs_suffix hL hpre
          unfold LegsWithin at hs
          cases hq : (S n).fl.path with
          | nil => exact absurd hq hp
          | cons b t =>
            rw [hq, List.isChain_cons_cons] at hs
            have := le_trans (dist3_nonneg _ _) hs.1
            have := le_max_left (1 : ℝ) v1
            linarith
        · have : (R : ℝ) ≤ j := by exact_mod_cast hRj
          have := mul_le_mul_of_nonneg_right this hlv.le
          linarith
    refine ⟨hend, ?_⟩
    obtain ⟨pre, hpre⟩ := left n le_rfl
    rw [hpre, hend]
    simp

/-- the vehicle is never farther than `D` from its goal -/
theorem flight_bound {sc lam v0 v1 L D : ℝ} {n : ℕ} {S : ℕ → GlobalSt} {out : ℕ → Option (GPose ℝ ℝ)} {part : ℕ → ℝ} {mid : ℕ → List Entry}
    (fl : Flight sc lam v0 v1 n S out part mid) (h0 : 0 < v0) (hlam : 0 < lam) (hl0 : 0 ≤ L) (hL : LegsWithin L ((S 0).fl.goal :: (S 0).fl.path))
    (hD : dist3 (S 0).fl.goal.position (S 0).fl.here.position ≤ D) (hLD : L + v1 + max 1 v1 ≤ D) :
    ∀ k ≤ n, dist3 (S k).fl.goal.position (S k).fl.here.position ≤ D := by
  intro k
  induction k with
  | zero => intro _; exact hD
  | succ k ih =>
    intro hk
    have hd := ih (by omega)
    obtain ⟨pre, hpre⟩ := flight_left fl h0 hL k (by omega)
    have hr := fl.round k (by omega)
    obtain ⟨v, c, hv0, hv1, k0, k2, k3, _, k5, _, h7⟩ := round_spec hr (fl.speeds k (by omega)) h0 (legs_suffix hL hpre)
    rcases h7 with ⟨j1, _, _⟩ | ⟨_, _, _, j3⟩
    · rw [j1, k5]
      obtain ⟨f0, f1⟩ := hr.part
      have d0 := dist3_nonneg (S k).fl.goal.position (S k).fl.here.position
      generalize dist3 (S k).fl.goal.position (S k).fl.here.position = d at *
      rcases lt_or_ge d 1 with h1 | h1
      · by_cases hz : d = 0
        · rw [hz, mul_zero]; linarith
        · rw [k2 h1 hz, mul_one, abs_of_nonneg (by linarith)]
          nlinarith
      · have e : |1 - part k * c| * d = |d - part k * v| := by
          rw [← k3 h1, ← abs_of_nonneg d0, ← abs_mul, abs_of_nonneg d0]
          congr 1
          ring
        rw [e, abs_le]
        have := le_max_left (1 : ℝ) v1
        constructor <;> nlinarith
    · linarith

theorem Flight.shift {sc lam v0 v1 : ℝ} {m n : ℕ} {S : ℕ → GlobalSt} {out : ℕ → Option (GPose ℝ ℝ)} {part : ℕ → ℝ} {mid : ℕ → List Entry}
    (fl : Flight sc lam v0 v1 (m + n) S out part mid) :
    Flight sc lam v0 v1 n (fun k => S (m + k)) (fun k => out (m + k)) (fun k => part (m + k)) (fun k => mid (m + k)) :=
  ⟨fun k hk => fl.round (m + k) (by omega), fun k hk => fl.speeds (m + k) (by omega)⟩

theorem Flight.take {sc lam v0 v1 : ℝ} {m n : ℕ} {S : ℕ → GlobalSt} {out : ℕ → Option (GPose ℝ ℝ)} {part : ℕ → ℝ} {mid : ℕ → List Entry}
    (fl : Flight sc lam v0 v1 n S out part mid) (h : m ≤ n) : Flight sc lam v0 v1 m S out part mid :=
  ⟨fun k hk => fl.round k (by omega), fun k hk => fl.speeds k (by omega)⟩

/-- **C113, the last pose.** When nothing is to come after the current goal and the vehicle flies at most a metre between two commands, every round brings it
closer to the goal (or it is there), and every distance `ε` is reached after a number of rounds known in advance. -/
theorem C113_last_pose_partial {sc lam v0 v1 D : ℝ} {n : ℕ} {S : ℕ → GlobalSt} {out : ℕ → Option (GPose ℝ ℝ)} {part : ℕ → ℝ} {mid : ℕ → List Entry}
    (fl : Flight sc lam v0 v1 n S out part mid) (h0 : 0 < v0) (hlam : 0 < lam) (hlast : (S 0).fl.path = [])
    (hshort : ∀ k < n, part k * dist3 (S k).fl.here.position (sentTo (S k) (out k)) ≤ 1) (hD : dist3 (S 0).fl.goal.position (S 0).fl.here.position ≤ D) :
    (∀ k ≤ n, (S k).fl.goal = (S 0).fl.goal ∧ (S k).fl.path = []) ∧
    (∀ k < n, dist3 (S 0).fl.goal.position (S (k + 1)).fl.here.position < dist3 (S 0).fl.goal.position (S k).fl.here.position ∨
      (S (k + 1)).fl.here.position = (S 0).fl.goal.position) ∧
    ∀ (R N : ℕ) (eps : ℝ), D ≤ R * (lam * v0) → (1 - lam) ^ N ≤ eps → R + N ≤ n → dist3 (S 0).fl.goal.position (S n).fl.here.position ≤ eps := by
  have hL : LegsWithin 0 ((S 0).fl.goal :: (S 0).fl.path) := by rw [hlast]; exact List.isChain_singleton _
  have stay : ∀ k ≤ n, (S k).fl.goal = (S 0).fl.goal ∧ (S k).fl.path = [] := by
    intro k hk
    obtain ⟨pre, hpre⟩ := flight_left fl h0 hL k hk
    rw [hlast] at hpre
    cases pre with
    | nil =>
      rw [List.nil_append, List.cons.injEq] at hpre
      exact ⟨hpre.1.symm, hpre.2.symm⟩
    | cons x y =>
      have := congrArg List.length hpre
      simp at this
  have step : ∀ k < n, (dist3 (S 0).fl.goal.position (S k).fl.here.position < 1 →
        dist3 (S 0).fl.goal.position (S (k + 1)).fl.here.position ≤ (1 - lam) * dist3 (S 0).fl.goal.position (S k).fl.here.position) ∧
      (1 ≤ dist3 (S 0).fl.goal.position (S k).fl.here.position →
        dist3 (S 0).fl.goal.position (S (k + 1)).fl.here.position ≤ dist3 (S 0).fl.goal.position (S k).fl.here.position - lam * v0) := by
    intro k hk
    obtain ⟨pre, hpre⟩ := flight_left fl h0 hL k hk.le
    have hr := fl.round k hk
    obtain ⟨v, c, hv0, hv1, k0, k2, k3, k4, k5, _, _⟩ := round_spec hr (fl.speeds k hk) h0 (legs_suffix hL hpre)
    have hs := hshort k hk
    rw [(stay k hk.le).1] at k2 k3 k4 k5
    rw [k4] at hs
    rw [k5]
    obtain ⟨f0, f1⟩ := hr.part
    have d0 := dist3_nonneg (S 0).fl.goal.position (S k).fl.here.position
    generalize dist3 (S 0).fl.goal.position (S k).fl.here.position = d at *
    constructor
    · intro h1
      by_cases hz : d = 0
      · rw [hz, mul_zero, mul_zero]
      · rw [k2 h1 hz, mul_one, abs_of_nonneg (by linarith)]
        nlinarith
    · intro h1
      have e : |1 - part k * c| * d = |d - part k * v| := by
        rw [← k3 h1, ← abs_of_nonneg d0, ← abs_mul, abs_of_nonneg d0]
        congr 1
        ring
      rw [k3 h1] at hs
      rw [e, abs_of_nonneg (by linarith)]
      have := mul_le_mul f0 hv0 h0.le (by linarith)
      linarith
  have hlv := mul_pos hlam h0
  refine ⟨stay, fun k hk => ?_, ?_⟩
  · obtain ⟨s1, s2⟩ := step k hk
    have d0 := dist3_nonneg (S 0).fl.goal.position (S k).fl.here.position
    rcases lt_or_ge (dist3 (S 0).fl.goal.position (S k).fl.here.position) 1 with h1 | h1
    · by_cases hz : dist3 (S 0).fl.goal.position (S k).fl.here.position = 0
      · right
        have h2 := s1 h1
        rw [hz, mul_zero] at h2
        have h3 := le_antisymm h2 (dist3_nonneg _ _)
        unfold dist3 at h3
        rw [norm_eq_zero_iff] at h3
        unfold V3.minus at h3
        simp only [V3.mk.injEq] at h3
        obtain ⟨a1, a2, a3⟩ := h3
        ext <;> linarith
      · left
        have : 0 < dist3 (S 0).fl.goal.position (S k).fl.here.position := lt_of_le_of_ne d0 (Ne.symm hz)
        have := s1 h1
        nlinarith
    · left
      have := s2 h1
      linarith
  · intro R N eps hR hN hRN
    have A : ∀ k ≤ n, dist3 (S 0).fl.goal.position (S k).fl.here.position < 1 ∨ dist3 (S 0).fl.goal.position (S k).fl.here.position ≤ D - k * (lam * v0) := by
      intro k
      induction k with
      | zero => intro _; right; simpa using hD
      | succ k ih =>
        intro hk
        obtain ⟨s1, s2⟩ := step k (by omega)
        have d0 := dist3_nonneg (S 0).fl.goal.position (S k).fl.here.position
        rcases lt_or_ge (dist3 (S 0).fl.goal.position (S k).fl.here.position) 1 with h1 | h1
        · left
          have := s1 h1
          nlinarith
        · right
          rcases ih (by omega) with h | h
          · linarith
          · have := s2 h1
            push_cast
            linarith
    have hl1 : n ≠ 0 → lam ≤ 1 := by
      intro hn
      have := (fl.round 0 (by omega)).part
      linarith
    have B : ∀ k, R ≤ k → k ≤ n → dist3 (S 0).fl.goal.position (S k).fl.here.position < 1 := by
      intro k hk hkn
      rcases A k hkn with h | h
      · exact h
      · have : (R : ℝ) * (lam * v0) ≤ k * (lam * v0) := mul_le_mul_of_nonneg_right (by exact_mod_cast hk) hlv.le
        linarith
    have C : ∀ m, R + m ≤ n → dist3 (S 0).fl.goal.position (S (R + m)).fl.here.position ≤ (1 - lam) ^ m := by
      intro m
      induction m with
      | zero => intro h; rw [pow_zero]; exact (B R le_rfl (by omega)).le
      | succ m ih =>
        intro h
        have h1 := (step (R + m) (by omega)).1 (B (R + m) (by omega) (by omega))
        have h2 := ih (by omega)
        have h3 : 0 ≤ 1 - lam := by linarith [hl1 (by omega)]
        rw [pow_succ, mul_comm]
        rw [Nat.add_assoc] at h1
        exact le_trans h1 (mul_le_mul_of_nonneg_left h2 h3)
    have h1 := C (n - R) (by omega)
    rw [show R + (n - R) = n by omega] at h1
    by_cases hn : n = 0
    · subst hn
      have hN0 : N = 0 := by omega
      have hR0 : R = 0 := by omega
      rw [hN0, pow_zero] at hN
      rw [hR0, Nat.sub_zero, pow_zero] at h1
      linarith
    · have hl := hl1 hn
      have h2 : (1 - lam) ^ (n - R) ≤ (1 - lam) ^ N := pow_le_pow_of_le_one (by linarith) (by linarith) (by omega)
      linarith

/-- **C113, the vehicle gets to the end of the path.** Both together: after `R` rounds for the first goal and for each pose to come, and `N` more, the vehicle is
within `ε` of the last pose of the path. -/
theorem C113_arrives_partial {sc lam v0 v1 L D eps : ℝ} {n R N : ℕ} {S : ℕ → GlobalSt} {out : ℕ → Option (GPose ℝ ℝ)} {part : ℕ → ℝ} {mid : ℕ → List Entry}
    (fl : Flight sc lam v0 v1 n S out part mid) (h0 : 0 < v0) (hv : v0 ≤ v1) (hlam : 0 < lam) (hl0 : 0 ≤ L) (hL : LegsWithin L ((S 0).fl.goal :: (S 0).fl.path))
    (hshort : ∀ k < n, part k * dist3 (S k).fl.here.position (sentTo (S k) (out k)) ≤ 1)
    (hD : dist3 (S 0).fl.goal.position (S 0).fl.here.position ≤ D) (hLD : L + v1 + max 1 v1 ≤ D) (hR : D ≤ R * (lam * v0)) (hN : (1 - lam) ^ N ≤ eps)
    (hn : ((S 0).fl.path.length + 1) * R + N ≤ n) :
    ∃ last, ((S 0).fl.goal :: (S 0).fl.path).getLast? = some last ∧ dist3 last.position (S n).fl.here.position ≤ eps := by
  have hm : (S 0).fl.path.length * R + (R + N) ≤ n := by
    rw [Nat.add_mul, Nat.one_mul] at hn
    omega
  generalize hmm : (S 0).fl.path.length * R = m at hm
  obtain ⟨m', rfl⟩ := Nat.exists_eq_add_of_le (show m ≤ n by omega)
  obtain ⟨_, e1, e2⟩ := C113_path_is_flown_partial (fl.take (m := m) (by omega)) h0 hv hlam hL hD hLD hR (le_of_eq hmm)
  have hb := flight_bound fl h0 hlam hl0 hL hD hLD m (by omega)
  obtain ⟨_, _, g3⟩ := C113_last_pose_partial fl.shift h0 hlam (show (S (m + 0)).fl.path = [] from e1) (fun k hk => hshort (m + k) (by omega)) (D := D) hb
  exact ⟨(S m).fl.goal, e2.symm, g3 R N eps hR hN (by omega)⟩

theorem manhattan_near (sc : ℝ) (c : Cell) (p q : V3 ℝ) : c.manhattan sc q ≤ c.manhattan sc p + 3 * dist3 p q := by
  have hc : ∀ t : ℝ, t ^ 2 ≤ (q.minus p).dot (q.minus p) → |t| ≤ dist3 p q := fun t ht => Real.abs_le_sqrt ht
  have hx := hc (q.x - p.x) (by unfold V3.dot V3.minus; dsimp only; nlinarith [sq_nonneg (q.y - p.y), sq_nonneg (q.z - p.z)])
  have hy := hc (q.y - p.y) (by unfold V3.dot V3.minus; dsimp only; nlinarith [sq_nonneg (q.x - p.x), sq_nonneg (q.z - p.z)])
  have hz := hc (q.z - p.z) (by unfold V3.dot V3.minus; dsimp only; nlinarith [sq_nonneg (q.x - p.x), sq_nonneg (q.y - p.y)])
  have key : ∀ a u w : ℝ, |a - w| ≤ |a - u| + |w - u| := fun a u w => by
    have := abs_sub (a - u) (w - u)
    rw [show a - u - (w - u) = a - w by ring] at this
    exact this
  unfold Cell.manhattan
  have k1 := key (pos sc c.x) p.x q.x
  have k2 := key (pos sc c.y) p.y q.y
  have k3 := key (pos sc c.z) p.z q.z
  linarith

/-- a path of the last resort ends in the goal cell -/
theorem resort_last {C : OldCfg ℝ} {ρ : Cell → Option ℝ} (h : GoodOld C ρ) {sc : ℝ} {s t : Cell} {pick : List ((Cell × Bool) × ℝ) → ℕ} {max n : ℕ} {p : List Cell}
    (hf : find2DPath sc C ρ s t pick max n = some (some p)) : p.getLast? = some t := by
  unfold find2DPath at hf
  dsimp only at hf
  split at hf
  · rename_i up down vert h1 h2 h3
    obtain rfl := Option.some.inj (Option.some.inj hf)
    obtain ⟨rest, r1, r2, _, _⟩ := C76_cell_search h sc true _ _ _ pick max n h2
    rw [List.getLast?_append, r1, List.getLast?_cons_cons, r2]
    rfl
  · exact absurd hf (by simp)
  · exact absurd hf (by simp)

/-- **C113, the vehicle reaches the goal.** In every run of the node: let a path have been found, for the goal `t` of that planning cycle, and be followed. If then
the vehicle flies at least the part `lam` of the way to each position commanded, at most a metre between two commands, then after a number of commands known
in advance it is within the radius of `t`, so that the next planning cycle counts the goal as reached - unless another planning cycle comes before. -/
theorem C113_reaches_goal_partial {sc : ℝ} {st0 : GlobalSt} {startPos : V3 ℝ} (hf : Fresh sc st0 startPos) (hw : GoodWorld st0.mem.world) (hc : GoodCost st0.conf.cost)
    {log : List Entry} {lam v0 v1 L D : ℝ} {n R N : ℕ} {S : ℕ → GlobalSt} {out : ℕ → Option (GPose ℝ ℝ)} {part : ℕ → ℝ} {mid : ℕ → List Entry}
    (hrun : Run sc st0 log (S 0)) (hs : ∀ e ∈ log, SaneEvent e.ev) {ep : Entry × List Cell} (hep : lastFound sc log = some ep)
    (hto : ToEnd sc ep.2 (S 0).fl) (hrad : 0 < (goalForCycle sc ep.1.st.gp).1.radius)
    (fl : Flight sc lam v0 v1 n S out part mid) (h0 : 0 < v0) (hv : v0 ≤ v1) (hlam : 0 < lam) (hl0 : 0 ≤ L) (hL : LegsWithin L ((S 0).fl.goal :: (S 0).fl.path))
    (hshort : ∀ k < n, part k * dist3 (S k).fl.here.position (sentTo (S k) (out k)) ≤ 1)
    (hD : dist3 (S 0).fl.goal.position (S 0).fl.here.position ≤ D) (hLD : L + v1 + max 1 v1 ≤ D) (hR : D ≤ R * (lam * v0))
    (hN : (1 - lam) ^ N ≤ (goalForCycle sc ep.1.st.gp).1.radius / 6) (hn : ((S 0).fl.path.length + 1) * R + N ≤ n) :
    (goalForCycle sc ep.1.st.gp).1.withinPosition sc (S n).gp.pos := by
  obtain ⟨last, hlast, hdist⟩ := C113_arrives_partial fl h0 hv hlam hl0 hL hshort hD hLD hR hN hn
  have hfound : ep.1 ∈ log ∧ foundIn sc ep.1 = some ep.2 := by
    unfold lastFound at hep
    have hm := List.mem_of_getLast? hep
    rw [List.mem_filterMap] at hm
    obtain ⟨e, he, hm⟩ := hm
    rw [Option.map_eq_some_iff] at hm
    obtain ⟨p, hp, hm⟩ := hm
    rw [← hm]
    exact ⟨he, hp⟩
  obtain ⟨pre, post, hl⟩ := List.append_of_mem hfound.1
  obtain ⟨hr1, _, _⟩ := run_prefix hrun hl
  have hpre : ∀ x ∈ pre, SaneEvent x.ev := fun x hx => hs x (by rw [hl]; exact List.mem_append_left _ hx)
  -- the end of the path
  have hend : ∃ c, ep.2.getLast? = some c ∧ (goalForCycle sc ep.1.st.gp).1.cell.manhattan sc (c.toPoint sc) < (goalForCycle sc ep.1.st.gp).1.radius / 2 := by
    rcases C101_plans_partial sc st0 hf.cache hw hc hrun hs hfound.1 hfound.2 with ⟨rest, h1, _, h3⟩ | ⟨factor, pick, m, h1⟩
    · refine ⟨_, ?_, h3⟩
      rw [h1, List.getLast?_cons_cons]
      exact List.getLast?_eq_some_getLast _
    · have hg := (run_sane hr1 hw hc hpre).2
      refine ⟨_, resort_last (C := ep.1.st.conf.old factor) ⟨hg.riskFactor, hg.up, hg.down, fun c r => run_risk hr1 hf.cache hw hc hpre c r⟩ h1, ?_⟩
      have : (goalForCycle sc ep.1.st.gp).1.cell.manhattan sc ((goalForCycle sc ep.1.st.gp).1.cell.toPoint sc) = 0 := by
        unfold Cell.manhattan Cell.toPoint
        simp
      rw [this]
      linarith
  obtain ⟨c, hc1, hc2⟩ := hend
  unfold ToEnd at hto
  rw [hlast, hc1] at hto
  have hpos : last.position = c.toPoint sc := Option.some.inj hto
  rw [hpos] at hdist
  -- the vehicle's position is known to the planner
  have hgp : (S n).gp.pos = (S n).fl.here.position := by
    have hR0 : 0 < R := by
      rcases Nat.eq_zero_or_pos R with h | h
      · rw [h, Nat.cast_zero, zero_mul] at hR
        have := le_max_left (1 : ℝ) v1
        linarith
      · exact h
    have hn0 : 0 < n := by
      have : R ≤ ((S 0).fl.path.length + 1) * R := Nat.le_mul_of_pos_left R (by omega)
      omega
    obtain ⟨m, rfl⟩ := Nat.exists_eq_succ_of_ne_zero hn0.ne'
    obtain ⟨pre', hpre'⟩ := flight_left fl h0 hL m (by omega)
    obtain ⟨_, _, _, _, _, _, _, _, _, h6, _⟩ := round_spec (fl.round m (by omega)) (fl.speeds m (by omega)) h0 (legs_suffix hL hpre')
    exact h6
  unfold GoalCell.withinPosition
  rw [hgp]
  have := manhattan_near sc (goalForCycle sc ep.1.st.gp).1.cell (c.toPoint sc) (S n).fl.here.position
  linarith

end Global
end Avoidance
