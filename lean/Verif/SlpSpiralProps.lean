import Verif.SlpMoreProps
import Verif.LandingGridProps

/-!
# The exploration spiral (C69) and the grid message (C70)
-/

namespace Avoidance
namespace Landing

set_option linter.unusedSectionVars false

variable {K : Type*} [Field K] [LinearOrder K] [IsStrictOrderedRing K] [FloorRing K]

/-! ## C69 -/

/-- Exactly `c` exploration goals have been set since the start of the exploration. -/
def Explored (w : Slp K) (c : ℕ) : Prop :=
  (c = 0 ∧ w.n_explored_pattern = -1 ∧ w.factor_exploration = 1) ∨
  (0 < c ∧ w.n_explored_pattern = (((c - 1) % 8 : ℕ) : ℤ) ∧ w.factor_exploration = 1 + (((c - 1) / 8 : ℕ) : K))

/-- The `c`-th goal (from 0) of a square spiral around `anchor`: eight directions per turn, turn `c / 8` at the distance
`spiral · (1 + c / 8)` patch widths. -/
def spiralGoal (anchor : V3 (Option K)) (spiral width : K) (c : ℕ) : V3 (Option K) :=
  let d : ℤ × ℤ := match c % 8 with
    | 0 => (1, 0) | 1 => (1, 1) | 2 => (0, 1) | 3 => (-1, 1) | 4 => (-1, 0) | 5 => (-1, -1) | 6 => (0, -1) | _ => (1, -1)
  let r := spiral * (1 + ((c / 8 : ℕ) : K)) * width
  ⟨anchor.x.map (· + r * (d.1 : K)), anchor.y.map (· + r * (d.2 : K)), anchor.z⟩

theorem exploreStart_frame (w : Slp K) :
    (exploreStart w).n_explored_pattern = w.n_explored_pattern ∧ (exploreStart w).factor_exploration = w.factor_exploration ∧
    (exploreStart w).exploration_is_active = true ∧
    (exploreStart w).exploration_anchor = (if w.exploration_is_active = true then w.exploration_anchor else w.loiter_position) ∧
    (exploreStart w).spiral_width = w.spiral_width ∧ (exploreStart w).smoothing_land_cell = w.smoothing_land_cell ∧
    (exploreStart w).grid = w.grid ∧ (exploreStart w).state = w.state := by
  unfold exploreStart
  by_cases h : w.exploration_is_active = true
  · rw [if_pos h, if_pos h]; exact ⟨rfl, rfl, h, rfl, rfl, rfl, rfl, rfl⟩
  · rw [if_neg h, if_neg h]; exact ⟨rfl, rfl, rfl, rfl, rfl, rfl, rfl, rfl⟩

theorem exploreAdvance_frame (w : Slp K) (c : ℕ) (h : Explored w c) :
    (exploreAdvance w).n_explored_pattern = ((c % 8 : ℕ) : ℤ) ∧ (exploreAdvance w).factor_exploration = 1 + ((c / 8 : ℕ) : K) ∧
    (exploreAdvance w).exploration_is_active = w.exploration_is_active ∧
    (exploreAdvance w).exploration_anchor = w.exploration_anchor ∧
    (exploreAdvance w).spiral_width = w.spiral_width ∧ (exploreAdvance w).smoothing_land_cell = w.smoothing_land_cell ∧
    (exploreAdvance w).grid = w.grid ∧ (exploreAdvance w).state = w.state := by
  have e8 : (explorationPattern.length : ℤ) = 8 := rfl
  unfold exploreAdvance
  rw [e8]
  rcases h with ⟨rfl, h1, h2⟩ | ⟨hc, h1, h2⟩
  · rw [if_neg (by omega)]
    refine ⟨by dsimp only; omega, ?_, rfl, rfl, rfl, rfl, rfl, rfl⟩
    dsimp only
    rw [h2]; simp
  · by_cases hq : (c - 1) % 8 = 7
    · rw [if_pos (by omega)]
      refine ⟨by dsimp only; omega, ?_, rfl, rfl, rfl, rfl, rfl, rfl⟩
      dsimp only
      have : c / 8 = (c - 1) / 8 + 1 := by omega
      rw [h2, this]; push_cast; ring
    · rw [if_neg (by omega)]
      refine ⟨by dsimp only; omega, ?_, rfl, rfl, rfl, rfl, rfl, rfl⟩
      dsimp only
      have : c / 8 = (c - 1) / 8 := by omega
      rw [h2, this]

/-- One exploration step. -/
theorem exploreNext_spec (w : Slp K) (c : ℕ) (h : Explored w c) :
    ∃ w', exploreNext w = some w' ∧ Explored w' (c + 1) ∧ w'.exploration_is_active = true ∧
      w'.exploration_anchor = (if w.exploration_is_active = true then w.exploration_anchor else w.loiter_position) ∧
      w'.goal = spiralGoal w'.exploration_anchor w.spiral_width (2 * (w.smoothing_land_cell : K) * w.grid.cell_size) c := by
  obtain ⟨s1, s2, s3, s4, s5, s6, s7, s8⟩ := exploreStart_frame w
  have h' : Explored (exploreStart w) c := by
    unfold Explored; rw [s1, s2]; exact h
  obtain ⟨a1, a2, a3, a4, a5, a6, a7, a8⟩ := exploreAdvance_frame _ c h'
  unfold exploreNext
  generalize exploreAdvance (exploreStart w) = u at *
  rw [s3] at a3
  rw [s4] at a4
  rw [s5] at a5
  rw [s6] at a6
  rw [s7] at a7
  unfold exploreGoal
  have hlt : c % 8 < 8 := Nat.mod_lt _ (by norm_num)
  have hg : ∃ d, explorationPattern[u.n_explored_pattern.toNat]? = some d ∧
      d = (match c % 8 with
        | 0 => ((1 : ℤ), (0 : ℤ)) | 1 => (1, 1) | 2 => (0, 1) | 3 => (-1, 1) | 4 => (-1, 0) | 5 => (-1, -1) | 6 => (0, -1) | _ => (1, -1)) := by
    rw [a1, Int.toNat_natCast]
    generalize c % 8 = q at *
    interval_cases q <;> exact ⟨_, rfl, rfl⟩
  obtain ⟨d, hd, ed⟩ := hg
  dsimp only
  rw [if_pos (by omega), hd, Option.map_some]
  refine ⟨_, rfl, ?_, a3, a4, ?_⟩
  · right
    refine ⟨by omega, ?_, ?_⟩
    · dsimp only; rw [a1, Nat.add_sub_cancel]
    · dsimp only; rw [a2, Nat.add_sub_cancel]
  · dsimp only
    unfold spiralGoal
    dsimp only
    rw [← ed, a5, a6, a7, a2]
    congr 2
    · funext x; ring
    · funext x; ring

/-- What one iteration does to the exploration. -/
def ExploreStep (w w' : Slp K) (c c' : ℕ) : Prop :=
  (c' = c ∧ w'.exploration_is_active = w.exploration_is_active ∧ w'.exploration_anchor = w.exploration_anchor) ∨
  (c' = 0 ∧ w.is_land_waypoint = false ∧ w'.exploration_is_active = false) ∨
  (c' = c + 1 ∧ w.state = .GOTO ∧ w'.state = .GOTO ∧ w.decision_taken = true ∧ w.can_land = false ∧ w'.exploration_is_active = true ∧
    w'.exploration_anchor = (if w.exploration_is_active = true then w.exploration_anchor else w.loiter_position) ∧
    w'.goal = spiralGoal w'.exploration_anchor w.spiral_width (2 * (w.smoothing_land_cell : K) * w.grid.cell_size) c)

theorem update_explore (w : Slp K) (hl : w.is_land_waypoint = true) :
    (updateSlpState w).n_explored_pattern = w.n_explored_pattern ∧ (updateSlpState w).factor_exploration = w.factor_exploration ∧
    (updateSlpState w).exploration_is_active = w.exploration_is_active ∧
    (updateSlpState w).exploration_anchor = w.exploration_anchor ∧ (updateSlpState w).spiral_width = w.spiral_width ∧
    (updateSlpState w).decision_taken = w.decision_taken ∧ (updateSlpState w).can_land = w.can_land := by
  have e : (updateHysteresisSize (updateMask w)).is_land_waypoint = true := by
    unfold updateHysteresisSize updateMask
    split_ifs <;> exact hl
  unfold updateSlpState updateNotLanding
  rw [if_pos e]
  unfold updateHysteresisSize updateMask
  split_ifs <;> exact ⟨rfl, rfl, rfl, rfl, rfl, rfl, rfl⟩

theorem update_noland (w : Slp K) (hl : w.is_land_waypoint = false) :
    (updateSlpState w).n_explored_pattern = -1 ∧ (updateSlpState w).factor_exploration = 1 ∧
    (updateSlpState w).exploration_is_active = false := by
  have e : (updateHysteresisSize (updateMask w)).is_land_waypoint = false := by
    unfold updateHysteresisSize updateMask
    split_ifs <;> exact hl
  unfold updateSlpState updateNotLanding
  rw [if_neg (by rw [e]; decide)]
  exact ⟨rfl, rfl, rfl⟩

/-- The exploration data of two generators agree. -/
def SameExplore (w v : Slp K) : Prop :=
  v.n_explored_pattern = w.n_explored_pattern ∧ v.factor_exploration = w.factor_exploration ∧
  v.exploration_is_active = w.exploration_is_active ∧ v.exploration_anchor = w.exploration_anchor

/-- State functions other than `runGoTo` leave the exploration alone, `runGoTo` may make one step. -/
theorem state_explore (ny : V3 (Option K) → V3 (Option K) → Option K) (u v : Slp K) (t : Transition) (s : SlpState)
    (h : match s with
        | .GOTO => runGoTo ny u = some (t, v)
        | .ALTITUDE_CHANGE => runAltitudeChange u = some (t, v)
        | .LOITER => runLoiter u = (t, v)
        | .LAND => runLand u = (t, v)
        | .EVALUATE_GRID => runEvaluateGrid u = some (t, v)
        | .GOTO_LAND => runGoToLand ny u = (t, v)) :
    SameExplore u v ∨ (s = .GOTO ∧ t = .REPEAT ∧ u.is_land_waypoint = true ∧ u.decision_taken = true ∧ u.can_land = false ∧
      ∃ g, exploreNext g = some v ∧ SameExplore u g ∧ g.loiter_position = u.loiter_position ∧ g.spiral_width = u.spiral_width ∧
        g.smoothing_land_cell = u.smoothing_land_cell ∧ g.grid = u.grid) := by
  cases s <;> dsimp only at h
  · unfold runGoTo at h
    obtain ⟨a, _, h⟩ := Option.bind_eq_some_iff.mp h
    have hp : SameExplore u (goToPublish ny u) ∧ (goToPublish ny u).loiter_position = u.loiter_position ∧
        (goToPublish ny u).spiral_width = u.spiral_width ∧ (goToPublish ny u).smoothing_land_cell = u.smoothing_land_cell ∧
        (goToPublish ny u).grid = u.grid ∧ (goToPublish ny u).is_land_waypoint = u.is_land_waypoint ∧
        (goToPublish ny u).decision_taken = u.decision_taken ∧ (goToPublish ny u).can_land = u.can_land := by
      unfold goToPublish publish SameExplore
      split_ifs <;> exact ⟨⟨rfl, rfl, rfl, rfl⟩, rfl, rfl, rfl, rfl, rfl, rfl, rfl⟩
    unfold goToDecide at h
    split_ifs at h with h1 h2
    · cases h; exact Or.inl hp.1
    · obtain ⟨v', hv, e⟩ := Option.map_eq_some_iff.mp h
      cases e
      right
      refine ⟨rfl, rfl, ?_, ?_, ?_, _, hv, hp.1, hp.2.1, hp.2.2.1, hp.2.2.2.1, hp.2.2.2.2.1⟩
      · rw [← hp.2.2.2.2.2.1]; exact h2.2.1
      · rw [← hp.2.2.2.2.2.2.1]; exact h2.2.2.1
      · rw [← hp.2.2.2.2.2.2.2]; exact h2.2.2.2
    · cases h; exact Or.inl hp.1
  · left
    unfold runLoiter loiterDecide loiterPrepare publish at h
    split_ifs at h <;> cases h <;> exact ⟨rfl, rfl, rfl, rfl⟩
  · left
    unfold runLand landPrepare publish at h
    split_ifs at h <;> cases h <;> exact ⟨rfl, rfl, rfl, rfl⟩
  · left
    unfold runAltitudeChange at h
    obtain ⟨a, _, h⟩ := Option.map_eq_some_iff.mp h
    unfold altitudeDecide at h
    dsimp only at h
    split_ifs at h <;> cases h <;> exact ⟨rfl, rfl, rfl, rfl⟩
  · left
    unfold runEvaluateGrid evaluateDecide at h
    obtain ⟨b, _, h⟩ := Option.bind_eq_some_iff.mp h
    split_ifs at h
    · cases h; exact ⟨rfl, rfl, rfl, rfl⟩
    · obtain ⟨o, _, h⟩ := Option.map_eq_some_iff.mp h
      cases o <;> cases h <;> exact ⟨rfl, rfl, rfl, rfl⟩
  · left
    unfold runGoToLand publish at h
    dsimp only at h
    split_ifs at h <;> cases h <;> exact ⟨rfl, rfl, rfl, rfl⟩

/-- One iteration. -/
theorem explore_calc (ny : V3 (Option K) → V3 (Option K) → Option K) (w w' : Slp K) (c : ℕ) (hc : Explored w c)
    (h : calculateWaypoint ny w = some w') : ∃ c', Explored w' c' ∧ ExploreStep w w' c c' := by
  have f := update_frame w
  have hu : ∃ cu, Explored (updateSlpState w) cu ∧
      ((w.is_land_waypoint = true ∧ cu = c) ∨ (w.is_land_waypoint = false ∧ cu = 0 ∧ (updateSlpState w).exploration_is_active = false)) := by
    cases hl : w.is_land_waypoint
    · obtain ⟨u1, u2, u3⟩ := update_noland w hl
      exact ⟨0, Or.inl ⟨rfl, u1, u2⟩, Or.inr ⟨rfl, rfl, u3⟩⟩
    · obtain ⟨u1, u2, _⟩ := update_explore w hl
      refine ⟨c, ?_, Or.inl ⟨rfl, rfl⟩⟩
      unfold Explored
      rw [u1, u2]; exact hc
  obtain ⟨cu, hcu, hcase⟩ := hu
  have same : ∀ x : Slp K, SameExplore (updateSlpState w) x → Explored x cu ∧ ExploreStep w x c cu := by
    intro x hx
    refine ⟨by unfold Explored; rw [hx.1, hx.2.1]; exact hcu, ?_⟩
    rcases hcase with ⟨hl, rfl⟩ | ⟨hl, rfl, ha⟩
    · left
      obtain ⟨_, _, u3, u4, _⟩ := update_explore w hl
      exact ⟨rfl, hx.2.2.1.trans u3, hx.2.2.2.trans u4⟩
    · right; left
      exact ⟨rfl, hl, hx.2.2.1.trans ha⟩
  rcases calc_cases ny w w' h with ⟨_, rfl⟩ | ⟨_, t, v, rfl, hm⟩
  · exact ⟨cu, same _ ⟨rfl, rfl, rfl, rfl⟩⟩
  · rcases state_explore ny _ _ _ _ hm with hs | ⟨hst, rfl, hl, hd, hcl, g, hg, hsg, g1, g2, g3, g4⟩
    · split_ifs
      · exact ⟨cu, same _ hs⟩
      · exact ⟨cu, same _ hs⟩
    · rw [f.2.2.2.2.2.2.1] at hl
      obtain ⟨u1, u2, u3, u4, u5, u6, u7⟩ := update_explore w hl
      rcases hcase with ⟨_, rfl⟩ | ⟨hl', _⟩
      · have hgc : Explored g cu := by unfold Explored; rw [hsg.1, hsg.2.1]; exact hcu
        obtain ⟨v', e1, e2, e3, e4, e5⟩ := exploreNext_spec g cu hgc
        rw [hg] at e1
        cases e1
        rw [if_neg (by decide)]
        refine ⟨cu + 1, e2, Or.inr (Or.inr ⟨rfl, hst, ?_, u6 ▸ hd, u7 ▸ hcl, e3, ?_, ?_⟩)⟩
        · show v.state = _
          rw [hst] at hm
          rw [(runGoTo_out ny _ _ _ hm).1.state, f.1, hst]
        · show v.exploration_anchor = _
          rw [e4, hsg.2.2.1, hsg.2.2.2, g1, u3, u4, f.2.2.2.2.2.2.2.2.2.1]
        · show v.goal = _
          rw [e5, g2, g3, g4, u5, f.2.2.2.1, f.2.2.1]
      · rw [hl] at hl'; cases hl'

/-- **C69.** In every run the exploration goals form a spiral: there is a count of the exploration goals that starts at 0,
is kept by every event except that an iteration without a landing waypoint ends the exploration, and an iteration at a
waypoint where landing was found impossible adds one and sets the corresponding goal of the square spiral around the
place where the exploration began. -/
theorem C69_spiral {ny : V3 (Option K) → V3 (Option K) → Option K} {N : ℕ} {h : ℕ → SlpNode K} {ev : ℕ → SlpEvent K}
    (r : SlpRun ny N h ev) :
    ∃ c : ℕ → ℕ, c 0 = 0 ∧ (∀ k ≤ N, Explored (h k).gen (c k)) ∧
      ∀ k < N, ((ev k).isIterate → ExploreStep (h k).gen (h (k + 1)).gen (c k) (c (k + 1))) ∧
        (¬ (ev k).isIterate → c (k + 1) = c k ∧ (h (k + 1)).gen.exploration_anchor = (h k).gen.exploration_anchor ∧
          (h (k + 1)).gen.exploration_is_active = (h k).gen.exploration_is_active) := by
  have step : ∀ k < N, ∀ c, Explored (h k).gen c → ∃ c', Explored (h (k + 1)).gen c' ∧
      ((ev k).isIterate → ExploreStep (h k).gen (h (k + 1)).gen c c') ∧
      (¬ (ev k).isIterate → c' = c ∧ (h (k + 1)).gen.exploration_anchor = (h k).gen.exploration_anchor ∧
          (h (k + 1)).gen.exploration_is_active = (h k).gen.exploration_is_active) := by
    intro k hk c hc
    by_cases hi : (ev k).isIterate
    · obtain ⟨c', h1, h2⟩ := explore_calc ny _ _ c hc (run_iterate r k hk hi)
      exact ⟨c', h1, fun _ => h2, fun hn => absurd hi hn⟩
    · have hs : SameExplore (h k).gen (h (k + 1)).gen := by
        have hs := r.step k hk
        generalize ev k = e at hs hi
        cases e with
        | iterate => exact absurd trivial hi
        | position p y => rw [← Option.some_inj.mp hs]; exact ⟨rfl, rfl, rfl, rfl⟩
        | reconfigure a b c d f g => rw [← Option.some_inj.mp hs]; exact ⟨rfl, rfl, rfl, rfl⟩
        | trajectory m =>
          rw [← Option.some_inj.mp hs]
          unfold trajectoryCallback
          dsimp only
          split_ifs <;> exact ⟨rfl, rfl, rfl, rfl⟩
        | state mode armed =>
          rw [← Option.some_inj.mp hs]
          unfold stateCallback
          cases mode <;> cases armed <;> exact ⟨rfl, rfl, rfl, rfl⟩
        | grid m =>
          obtain ⟨g, _, e⟩ := Option.map_eq_some_iff.mp hs
          rw [← e]; exact ⟨rfl, rfl, rfl, rfl⟩
      refine ⟨c, ?_, fun h0 => absurd h0 hi, fun _ => ⟨rfl, hs.2.2.2, hs.2.2.1⟩⟩
      unfold Explored; rw [hs.1, hs.2.1]; exact hc
  classical
  let next : ℕ → ℕ → ℕ := fun k c => if hx : k < N ∧ Explored (h k).gen c then (step k hx.1 c hx.2).choose else 0
  let cs : ℕ → ℕ := fun k => Nat.rec 0 next k
  have all : ∀ k ≤ N, Explored (h k).gen (cs k) := by
    intro k
    induction k with
    | zero => intro _; rw [r.start]; exact Or.inl ⟨rfl, rfl, rfl⟩
    | succ k ih =>
      intro hk
      have hx : k < N ∧ Explored (h k).gen (cs k) := ⟨by omega, ih (by omega)⟩
      show Explored (h (k + 1)).gen (next k (cs k))
      simp only [next]
      rw [dif_pos hx]
      exact (step k hx.1 (cs k) hx.2).choose_spec.1
  refine ⟨cs, rfl, all, fun k hk => ?_⟩
  have hx : k < N ∧ Explored (h k).gen (cs k) := ⟨hk, all k (by omega)⟩
  have e : cs (k + 1) = (step k hx.1 (cs k) hx.2).choose := by
    show next k (cs k) = _
    simp only [next]
    rw [dif_pos hx]
  rw [e]
  exact (step k hx.1 (cs k) hx.2).choose_spec.2

/-- When an iteration is defined. -/
theorem calc_defined (ny : V3 (Option K) → V3 (Option K) → Option K) (w : Slp K) (hm : MaskOk w) (hr : ResultOk w) (n : ℕ)
    (hexk : Explored w n) (hn : 2 * w.smoothing_land_cell + 1 ≤ w.grid.n) (hs : 1 ≤ w.smoothing_land_cell) :
    ∃ w', calculateWaypoint ny w = some w' := by
  have f := update_frame w
  have hcon := update_consistent w hm
  have hru : ResultOk (updateSlpState w) := by
    rcases update_result w with ⟨e, _⟩ | e
    · unfold ResultOk; rw [e]; exact hr
    · unfold ResultOk; rw [e]; exact fun _ _ => Or.inl rfl
  have hper : ∀ x : Slp K, x.grid = w.grid → x.smoothing_land_cell = w.smoothing_land_cell → ∃ v, heightPercentile x 80 = some v := by
    intro x e1 e2
    rw [C51_defined_iff, e1, e2]
    exact ⟨hn, hs⟩
  have hexu : ∃ c, Explored (updateSlpState w) c := by
    cases hl : w.is_land_waypoint
    · obtain ⟨u1, u2, u3⟩ := update_noland w hl
      exact ⟨0, Or.inl ⟨rfl, u1, u2⟩⟩
    · obtain ⟨u1, u2, _⟩ := update_explore w hl
      refine ⟨n, ?_⟩
      unfold Explored
      rw [u1, u2]; exact hexk
  obtain ⟨c, hc⟩ := hexu
  suffices hsuf : ∃ x, runCurrentState ny (updateSlpState w) = some x by
    obtain ⟨x, hx⟩ := hsuf
    unfold calculateWaypoint
    rw [hx]; exact ⟨_, rfl⟩
  unfold runCurrentState
  by_cases ht : (updateSlpState w).trigger_reset = true
  · rw [if_pos ht]; exact ⟨_, rfl⟩
  · rw [if_neg ht]
    cases hst : (updateSlpState w).state <;> dsimp only
    · have hp : (goToPublish ny (updateSlpState w)).grid = w.grid ∧ (goToPublish ny (updateSlpState w)).smoothing_land_cell = w.smoothing_land_cell ∧
          Explored (goToPublish ny (updateSlpState w)) c := by
        have : SameExplore (updateSlpState w) (goToPublish ny (updateSlpState w)) := by
          unfold goToPublish publish SameExplore
          split_ifs <;> exact ⟨rfl, rfl, rfl, rfl⟩
        refine ⟨?_, ?_, ?_⟩
        · unfold goToPublish publish; split_ifs <;> exact f.2.2.1
        · unfold goToPublish publish; split_ifs <;> exact f.2.2.2.1
        · unfold Explored; rw [this.1, this.2.1]; exact hc
      obtain ⟨a, ha⟩ := hper _ hp.1 hp.2.1
      unfold runGoTo
      rw [ha, Option.bind_some]
      unfold goToDecide
      split_ifs
      · exact ⟨_, rfl⟩
      · obtain ⟨v, hv, _⟩ := exploreNext_spec { goToPublish ny (updateSlpState w) with altitude_percentile := a, hyst := fun _ _ => 0 } c hp.2.2
        rw [hv]; exact ⟨_, rfl⟩
      · exact ⟨_, rfl⟩
    · exact ⟨_, rfl⟩
    · exact ⟨_, rfl⟩
    · obtain ⟨a, ha⟩ := hper (altitudePrepare (updateSlpState w)) f.2.2.1 f.2.2.2.1
      unfold runAltitudeChange
      rw [ha]; exact ⟨_, rfl⟩
    · obtain ⟨t, v, hv, _⟩ := C48_evaluation (updateSlpState w) hcon hru (by rw [f.2.2.1, f.2.2.2.1]; exact hn)
      rw [hv]; exact ⟨_, rfl⟩
    · exact ⟨_, rfl⟩

/-- **C69, memory safety of an iteration.** In every run, an iteration is free of undefined behaviour whenever the patch
fits into the received grid and has at least one ring of cells; all indices (patch, percentile, exploration direction)
are then in range. -/
theorem C69_iteration_safe {ny : V3 (Option K) → V3 (Option K) → Option K} {N : ℕ} {h : ℕ → SlpNode K} {ev : ℕ → SlpEvent K}
    (r : SlpRun ny N h ev) (k : ℕ) (hk : k ≤ N) (hn : 2 * (h k).gen.smoothing_land_cell + 1 ≤ (h k).gen.grid.n)
    (hs : 1 ≤ (h k).gen.smoothing_land_cell) : ∃ w', calculateWaypoint ny (h k).gen = some w' := by
  obtain ⟨hm, hr⟩ := run_ok r k hk
  obtain ⟨cs, _, hex, _⟩ := C69_spiral r
  have hexk := hex k hk
  exact calc_defined ny _ hm hr _ hexk hn hs

/-- A run with an unlandable site: after the evaluation fails, the first exploration goal is 2·1·2·1·1 = 4 m to the
side of the loiter position. -/
example :
    (slpRunList [.reconfigure 0 (4/10) 4 1 2 1, .position ⟨some 0, some 0, some 4⟩ (some 0), .trajectory (landMessage 0 4 0),
      .grid { flatGrid 1 with land := List.replicate 9 0 }, .iterate, .iterate, .iterate,
      .grid { flatGrid 30 with land := List.replicate 9 0 }, .iterate, .iterate, .iterate]).map
      (fun s => (s.gen.state, s.gen.goal, s.gen.n_explored_pattern)) =
    some (.GOTO, ⟨some 4, some 0, some 4⟩, 0) := by decide +kernel

/-! ## C70 -/

theorem indices_get (n i j : ℕ) (hi : i < n) (hj : j < n) : (indices n n)[n * i + j]? = some (i, j) := by
  have gen : ∀ r, i < r → (indices r n)[n * i + j]? = some (i, j) := by
    intro r
    induction r with
    | zero => intro h; omega
    | succ r ih =>
      intro hr
      have e : indices (r + 1) n = indices r n ++ (List.range n).map fun j => (r, j) := by
        unfold indices
        rw [List.range_succ, List.flatMap_append]
        simp
      rw [e]
      by_cases hir : i < r
      · rw [List.getElem?_append_left]
        · exact ih hir
        · rw [indices_length]
          calc n * i + j < n * i + n := by omega
            _ = n * (i + 1) := by ring
            _ ≤ n * r := Nat.mul_le_mul_left _ hir
            _ = r * n := by ring
      · have : i = r := by omega
        subst this
        rw [List.getElem?_append_right (by rw [indices_length]; rw [Nat.mul_comm]; omega), indices_length,
          show n * i + j - i * n = j by rw [Nat.mul_comm]; omega, List.getElem?_map, List.getElem?_range hj]
        rfl
  exact gen n hi

/-- The loop of the grid callback. -/
theorem gridCell_loop (m : GridMsg K) (l : List (ℕ × ℕ)) (M : ℕ → ℕ → K) (L : ℕ → ℕ → ℤ)
    (hM : ∀ ij ∈ l, m.mean[m.cols * ij.1 + ij.2]? = some (M ij.1 ij.2))
    (hL : ∀ ij ∈ l, m.land[m.cols * ij.1 + ij.2]? = some (L ij.1 ij.2)) (g : Grid K) (hin : ∀ ij ∈ l, InGrid g.n ij.1 ij.2) :
    ∃ g', loopM (gridCell m) g l = some g' ∧ g'.n = g.n ∧ g'.grid_size = g.grid_size ∧ g'.cell_size = g.cell_size ∧
      (∀ ij ∈ l, g'.mean ij.1 ij.2 = M ij.1 ij.2 ∧ g'.land ij.1 ij.2 = L ij.1 ij.2) ∧
      (∀ ij : ℕ × ℕ, ij ∉ l → g'.mean ij.1 ij.2 = g.mean ij.1 ij.2 ∧ g'.land ij.1 ij.2 = g.land ij.1 ij.2) := by
  induction l generalizing g with
  | nil => exact ⟨g, rfl, rfl, rfl, rfl, fun _ h => by simp at h, fun _ _ => ⟨rfl, rfl⟩⟩
  | cons ij l ih =>
    have hM0 := hM ij List.mem_cons_self
    have hL0 := hL ij List.mem_cons_self
    have e : gridCell m g ij = some { g with mean := write g.mean ij.1 ij.2 (M ij.1 ij.2), land := write g.land ij.1 ij.2 (L ij.1 ij.2) } := by
      unfold gridCell
      rw [if_pos (hin ij List.mem_cons_self), hM0, hL0]
    obtain ⟨g', h1, h2, h3, h4, h5, h6⟩ := ih (fun x hx => hM x (List.mem_cons_of_mem _ hx)) (fun x hx => hL x (List.mem_cons_of_mem _ hx))
      { g with mean := write g.mean ij.1 ij.2 (M ij.1 ij.2), land := write g.land ij.1 ij.2 (L ij.1 ij.2) }
      (fun x hx => hin x (List.mem_cons_of_mem _ hx))
    refine ⟨g', by unfold loopM; rw [e]; exact h1, h2, h3, h4, ?_, ?_⟩
    · intro x hx
      by_cases hxl : x ∈ l
      · exact h5 x hxl
      · have : x = ij := by
          rcases List.mem_cons.mp hx with h | h
          · exact h
          · exact absurd h hxl
        subst this
        obtain ⟨q1, q2⟩ := h6 x hxl
        rw [q1, q2]
        constructor <;> (dsimp only; unfold write; rw [if_pos ⟨rfl, rfl⟩])
    · intro x hx
      rw [List.mem_cons, not_or] at hx
      obtain ⟨q1, q2⟩ := h6 x hx.2
      rw [q1, q2]
      have hne : ¬ ((x.1 : ℤ) = ij.1 ∧ (x.2 : ℤ) = ij.2) := by
        rintro ⟨z1, z2⟩
        exact hx.1 (Prod.ext (by exact_mod_cast z1) (by exact_mod_cast z2))
      constructor <;> (dsimp only; unfold write; rw [if_neg hne])

/-- **C70.** The grid message is understood by the waypoint generator: whatever grid the planner publishes (its size being
the one its cell size implies), receiving it causes no out-of-range access, whatever grid was stored before, and afterwards
the stored grid has the same size, the same sequence number and in every cell the same mean height and landability. -/
theorem C70_grid_round_trip (sqrt : K → K) (p : Planner K) (seq : ℤ) (hp : p.previous.Sized) (s : SlpNode K)
    (hs : s.gen.grid.Sized) :
    ∃ s', gridCallback s (publishSerialGrid sqrt p seq) = some s' ∧ s'.gen.grid.n = p.previous.n ∧
      s'.gen.grid.grid_size = p.previous.grid_size ∧ s'.gen.grid.cell_size = p.previous.cell_size ∧
      s'.gen.grid_seq = seq ∧ s'.grid_received = true ∧ s'.gen.grid.Sized ∧
      ∀ i j, InGrid p.previous.n i j → s'.gen.grid.mean i j = p.previous.mean i j ∧ s'.gen.grid.land i j = p.previous.land i j := by
  unfold gridCallback
  dsimp only
  set m := publishSerialGrid sqrt p seq with hm
  have hg : ∃ g : Grid K, (if s.gen.grid.grid_size ≠ m.grid_size ∨ s.gen.grid.cell_size ≠ m.cell_size then s.gen.grid.resize m.grid_size m.cell_size else s.gen.grid) = g ∧
      g.n = p.previous.n ∧ g.grid_size = p.previous.grid_size ∧ g.cell_size = p.previous.cell_size := by
    by_cases hc : s.gen.grid.grid_size ≠ m.grid_size ∨ s.gen.grid.cell_size ≠ m.cell_size
    · rw [if_pos hc]
      exact ⟨_, rfl, hp.2.2.symm, rfl, rfl⟩
    · rw [if_neg hc]
      push Not at hc
      refine ⟨_, rfl, ?_, hc.1, hc.2⟩
      rw [hs.2.2, hp.2.2, hc.1, hc.2]
      rfl
  obtain ⟨g, e, g1, g2, g3⟩ := hg
  rw [e]
  have hr : m.rows = p.previous.n := rfl
  have hcol : m.cols = p.previous.n := rfl
  obtain ⟨g', h1, h2, h3, h4, h5, _⟩ := gridCell_loop m (indices m.rows m.cols) (fun i j => p.previous.mean i j) (fun i j => p.previous.land i j)
    (by
      intro ij hij
      rw [hr, hcol, mem_indices] at hij
      rw [hcol]
      show ((indices p.previous.n p.previous.n).map fun ij => p.previous.mean ij.1 ij.2)[_]? = _
      rw [List.getElem?_map, indices_get _ _ _ hij.1 hij.2]; rfl)
    (by
      intro ij hij
      rw [hr, hcol, mem_indices] at hij
      rw [hcol]
      show ((indices p.previous.n p.previous.n).map fun ij => p.previous.land ij.1 ij.2)[_]? = _
      rw [List.getElem?_map, indices_get _ _ _ hij.1 hij.2]; rfl)
    g (by
      intro ij hij
      rw [hr, hcol, mem_indices] at hij
      unfold InGrid
      omega)
  rw [h1, Option.map_some]
  refine ⟨_, rfl, by dsimp only; omega, h3.trans g2, h4.trans g3, rfl, rfl, ⟨?_, ?_, ?_⟩, ?_⟩
  · dsimp only; rw [h4, g3]; exact hp.1
  · dsimp only; rw [h3, g2]; exact hp.2.1
  · dsimp only; rw [h2, h3, h4, g1, g2, g3]; exact hp.2.2
  · intro i j hij
    unfold InGrid at hij
    have := h5 (i.toNat, j.toNat) (by rw [hr, hcol, mem_indices]; constructor <;> dsimp only <;> omega)
    dsimp only at this
    rw [Int.toNat_of_nonneg (by omega), Int.toNat_of_nonneg (by omega)] at this
    exact this

/-- The initial grids of both nodes are of that kind. -/
example : (plannerInit : Planner ℚ).previous.Sized ∧ (slpInit : SlpNode ℚ).gen.grid.Sized := by
  constructor <;> (unfold Grid.Sized; decide +kernel)

end Landing
end Avoidance
