import Mathlib.Tactic.Linarith
import Mathlib.Tactic.Ring
import Mathlib.Tactic.FieldSimp
import Mathlib.Tactic.Positivity
import Mathlib.Tactic.IntervalCases
import Mathlib.Data.List.GetD
import Verif.LandingSystemProps

/-!
# Where the vehicle comes down (C107)
-/

namespace Avoidance
namespace Landing

set_option linter.unusedSectionVars false

variable {K : Type*} [Field K] [LinearOrder K] [IsStrictOrderedRing K] [FloorRing K]

/-! ## Specification -/

/-- A descent: the loiter phase from event `l` on, up to `e`, the evaluation up to event `i`, the way to the site up to event `k`, and
then the landing. -/
structure Descent (h : ℕ → SlpNode K) (l e i k : ℕ) : Prop where
  pos : 0 < l
  le : l ≤ e
  ei : e < i
  ik : i < k
  before : (h (l - 1)).gen.state ≠ .LOITER
  loiter : ∀ m, l ≤ m → m ≤ e → (h m).gen.state = .LOITER
  eval : ∀ m, e < m → m ≤ i → (h m).gen.state = .EVALUATE_GRID
  way : ∀ m, i < m → m ≤ k → (h m).gen.state = .GOTO_LAND
  land : (h (k + 1)).gen.state = .LAND

/-- An event that neither moves the autopilot's waypoint nor ends its order to land: a trajectory message is for the same waypoint as
the one before (or carries none), the flight mode is one of the two automatic ones, and the vehicle stays armed.  All other events are
allowed. -/
def Undisturbed (s : SlpNode K) : SlpEvent K → Prop
  | .trajectory m => m.valid0 = false ∨ (¬ farApart m.position2 s.goal_visualization ∧ s.gen.goal.x ≠ none ∧ s.gen.goal.y ≠ none)
  | .state mode armed => mode ≠ .other ∧ armed = true
  | _ => True

/-! ## The node -/

theorem calm_step (ny : V3 (Option K) → V3 (Option K) → Option K) (s s' : SlpNode K) (e : SlpEvent K) (hi : ¬ e.isIterate)
    (hu : Undisturbed s e) (h : slpStep ny s e = some s') (hl : s.gen.is_land_waypoint = true) :
    s'.gen.goal = s.gen.goal ∧ s'.gen.is_land_waypoint = true ∧ s'.gen.state_changed = s.gen.state_changed ∧
    s'.gen.landing_radius = s.gen.landing_radius ∧ s'.gen.state = s.gen.state := by
  cases e with
  | iterate => exact absurd trivial hi
  | position p y => cases h; exact ⟨rfl, hl, rfl, rfl, rfl⟩
  | reconfigure a b c d f g => cases h; exact ⟨rfl, hl, rfl, rfl, rfl⟩
  | grid m =>
    obtain ⟨g, _, rfl⟩ := Option.map_eq_some_iff.mp h
    exact ⟨rfl, hl, rfl, rfl, rfl⟩
  | state mode armed =>
    obtain ⟨h1, h2⟩ := hu
    cases h
    unfold stateCallback
    rw [h2]
    cases mode with
    | other => exact absurd rfl h1
    | AUTO_LAND => exact ⟨rfl, rfl, rfl, rfl, rfl⟩
    | AUTO_MISSION => exact ⟨rfl, hl, rfl, rfl, rfl⟩
  | trajectory m =>
    cases h
    have hno : ¬ ((farApart m.position2 s.goal_visualization ∨ s.gen.goal.x = none ∨ s.gen.goal.y = none) ∧ m.valid0 = true) := by
      rintro ⟨h1, h2⟩
      rcases hu with hu | ⟨u1, u2, u3⟩
      · rw [hu] at h2; cases h2
      · rcases h1 with h1 | h1 | h1
        · exact u1 h1
        · exact u2 h1
        · exact u3 h1
    unfold trajectoryCallback
    dsimp only
    rw [if_neg hno]
    split_ifs <;> exact ⟨rfl, hl, rfl, rfl, rfl⟩

theorem loiterPrepare_goal (w : Slp K) : (loiterPrepare w).goal = if w.state_changed = true then w.position else w.goal := by
  unfold loiterPrepare publish
  split_ifs <;> rfl

/-- An iteration in the loiter state that does not end in a reset. -/
theorem loiter_calc (ny : V3 (Option K) → V3 (Option K) → Option K) (w w' : Slp K) (h : calculateWaypoint ny w = some w')
    (hs : w.state = .LOITER) (hn : w'.state ≠ .GOTO) :
    w'.goal = (if w.state_changed = true then w.position else w.goal) ∧ w'.is_land_waypoint = w.is_land_waypoint ∧
    (w'.state = .LOITER → w'.state_changed = false) := by
  have f := update_frame w
  rcases calc_cases ny w w' h with ⟨_, rfl⟩ | ⟨_, t, v, rfl, hm⟩
  · exfalso
    apply hn
    rw [slpChoose_state]
    cases ({ updateSlpState w with trigger_reset := false } : Slp K).state <;> rfl
  · rw [hs] at hm
    dsimp only at hm
    have hg : v.goal = (loiterPrepare (updateSlpState w)).goal := by
      unfold runLoiter loiterDecide at hm
      split_ifs at hm <;> (cases hm; rfl)
    obtain ⟨km, hc⟩ := runLoiter_out _ _ _ hm
    rw [loiterPrepare_goal, f.2.2.2.2.2.2.2.1, f.2.2.2.2.2.2.2.2.1, f.2.2.2.2.2.2.2.2.2.2.1] at hg
    have hl : v.is_land_waypoint = w.is_land_waypoint := by rw [km.is_land, f.2.2.2.2.2.2.1]
    have vs : v.state = .LOITER := by rw [km.state, f.1, hs]
    rcases hc with ⟨rfl, _⟩ | ⟨rfl, _⟩
    · rw [if_neg (by decide)]
      exact ⟨hg, hl, fun _ => rfl⟩
    · rw [if_pos (by decide)]
      refine ⟨hg, hl, fun hx => ?_⟩
      rw [slpChoose_state] at hx
      have : usmTable .GOTO slpTable v.state .NEXT1 = .LOITER := hx
      rw [vs] at this
      exact absurd this (by decide)

/-- A state is entered with the flag set. -/
theorem entered (ny : V3 (Option K) → V3 (Option K) → Option K) (s s' : SlpNode K) (e : SlpEvent K) (h : slpStep ny s e = some s')
    (hne : s'.gen.state ≠ s.gen.state) : s'.gen.state_changed = true := by
  by_cases hi : e.isIterate
  · cases e with
    | iterate =>
      obtain ⟨g, hg, rfl⟩ := Option.map_eq_some_iff.mp h
      dsimp only at hne ⊢
      rcases calc_cases ny _ _ hg with ⟨_, rfl⟩ | ⟨_, t, v, rfl, hm⟩
      · rfl
      · by_cases ht : t ≠ .REPEAT
        · rw [if_pos ht]; rfl
        · exfalso
          apply hne
          rw [if_neg ht]
          have f := update_frame s.gen
          show v.state = s.gen.state
          cases hs : s.gen.state <;> rw [hs] at hm <;> dsimp only at hm
          · rw [(runGoTo_out ny _ _ _ hm).1.state, f.1, hs]
          · rw [(runLoiter_out _ _ _ hm).1.state, f.1, hs]
          · rw [(runLand_out _ _ _ hm).1.state, f.1, hs]
          · rw [(runAltitude_out _ _ _ hm).1.state, f.1, hs]
          · rw [(runEvaluate_out _ _ _ hm).1.state, f.1, hs]
          · rw [(runGoToLand_out ny _ _ _ hm).1.state, f.1, hs]
    | _ => exact absurd hi id
  · exact absurd (callback_frame ny _ _ _ hi h).1 hne

/-- The loiter goal: the position at the first iteration of the phase. -/
theorem loiter_goal {ny : V3 (Option K) → V3 (Option K) → Option K} {N : ℕ} {h : ℕ → SlpNode K} {ev : ℕ → SlpEvent K}
    (r : SlpRun ny N h ev) {l e i k : ℕ} (d : Descent h l e i k) (hk : k < N) (hl : (h l).gen.is_land_waypoint = true)
    (calm : ∀ m, l ≤ m → m ≤ k → Undisturbed (h m) (ev m)) :
    ∃ q, l ≤ q ∧ q ≤ e ∧ (ev q).isIterate ∧ (∀ m, l ≤ m → m < q → ¬ (ev m).isIterate) ∧ (h (e + 1)).gen.goal = (h q).gen.position ∧
      (h (e + 1)).gen.is_land_waypoint = true := by
  have d1 := d.le; have d2 := d.ei; have d3 := d.ik
  have key : ∀ m, l + m ≤ e + 1 → (h (l + m)).gen.is_land_waypoint = true ∧
      (((∀ m', l ≤ m' → m' < l + m → ¬ (ev m').isIterate) ∧ (h (l + m)).gen.state_changed = true ∧ (h (l + m)).gen.state = .LOITER) ∨
       ∃ q, l ≤ q ∧ q < l + m ∧ (ev q).isIterate ∧ (∀ m', l ≤ m' → m' < q → ¬ (ev m').isIterate) ∧ (h (l + m)).gen.goal = (h q).gen.position ∧
        ((h (l + m)).gen.state = .LOITER → (h (l + m)).gen.state_changed = false)) := by
    intro m
    induction m with
    | zero =>
      intro _
      refine ⟨hl, Or.inl ⟨fun m' h1 h2 => by omega, ?_, d.loiter _ (by omega) (by omega)⟩⟩
      have hst := r.step (l - 1) (by omega)
      have d0 := d.pos
      rw [show l - 1 + 1 = l by omega] at hst
      exact entered ny _ _ _ hst (by show (h l).gen.state ≠ _; rw [d.loiter l (le_refl _) d.le]; exact d.before.symm)
    | succ m ih =>
      intro hm
      obtain ⟨i1, i2⟩ := ih (by omega)
      have hs0 := d.loiter (l + m) (by omega) (by omega)
      rw [show l + (m + 1) = l + m + 1 by omega]
      have hst := r.step (l + m) (by omega)
      by_cases hi : (ev (l + m)).isIterate
      · have hc := run_iterate r (l + m) (by omega) hi
        have hn : (h (l + m + 1)).gen.state ≠ .GOTO := by
          by_cases hle : l + m + 1 ≤ e
          · rw [d.loiter _ (by omega) hle]; decide
          · rw [d.eval _ (by omega) (by omega)]; decide
        obtain ⟨c1, c2, c3⟩ := loiter_calc ny _ _ hc hs0 hn
        refine ⟨by rw [c2]; exact i1, Or.inr ?_⟩
        rcases i2 with ⟨j1, j2, _⟩ | ⟨q, q1, q2, q3, q4, q5, q6⟩
        · rw [if_pos j2] at c1
          exact ⟨l + m, by omega, by omega, hi, j1, c1, c3⟩
        · rw [if_neg (by rw [q6 hs0]; decide)] at c1
          exact ⟨q, q1, by omega, q3, q4, by rw [c1, q5], c3⟩
      · obtain ⟨c1, c2, c3, c4, c5⟩ := calm_step ny _ _ _ hi (calm _ (by omega) (by omega)) hst i1
        refine ⟨c2, ?_⟩
        rcases i2 with ⟨j1, j2, j3⟩ | ⟨q, q1, q2, q3, q4, q5, q6⟩
        · refine Or.inl ⟨fun m' h1 h2 => ?_, by rw [c3, j2], by rw [c5, j3]⟩
          by_cases hmm : m' = l + m
          · rw [hmm]; exact hi
          · exact j1 m' h1 (by omega)
        · refine Or.inr ⟨q, q1, by omega, q3, q4, by rw [c1, q5], fun hx => ?_⟩
          rw [c3]
          exact q6 (by rw [← c5]; exact hx)
  obtain ⟨k1, k2⟩ := key (e + 1 - l) (by omega)
  rw [show l + (e + 1 - l) = e + 1 by omega] at k1 k2
  rcases k2 with ⟨_, _, j3⟩ | ⟨q, q1, q2, q3, q4, q5, _⟩
  · rw [d.eval (e + 1) (by omega) (by omega)] at j3; cases j3
  · exact ⟨q, q1, by omega, q3, q4, q5, k1⟩

/-- Until the evaluation is done, goal and order stay. -/
theorem eval_goal {ny : V3 (Option K) → V3 (Option K) → Option K} {N : ℕ} {h : ℕ → SlpNode K} {ev : ℕ → SlpEvent K}
    (r : SlpRun ny N h ev) {l e i k : ℕ} (d : Descent h l e i k) (hk : k < N) (hl : (h (e + 1)).gen.is_land_waypoint = true)
    (calm : ∀ m, l ≤ m → m ≤ k → Undisturbed (h m) (ev m)) :
    (h i).gen.goal = (h (e + 1)).gen.goal ∧ (h i).gen.is_land_waypoint = true ∧ (ev i).isIterate := by
  have d1 := d.le; have d2 := d.ei; have d3 := d.ik
  have noit : ∀ m, e < m → m < i → ¬ (ev m).isIterate := by
    intro m h1 h2 hi
    have hc := run_iterate r m (by omega) hi
    have hs0 := d.eval m h1 (by omega)
    have hs1 := d.eval (m + 1) (by omega) (by omega)
    rcases calc_summary ny _ _ hc with ⟨_, e⟩ | ⟨_, ⟨e0, _⟩ | ⟨e0, _⟩ | ⟨e0, _⟩ | ⟨e0, e | ⟨e, _⟩⟩ | ⟨e0, _⟩ | ⟨e0, _⟩⟩
    all_goals first | (rw [hs0] at e0; cases e0; done) | (rw [hs1] at e; cases e; done)
  have key : ∀ m, e + 1 + m ≤ i → (h (e + 1 + m)).gen.goal = (h (e + 1)).gen.goal ∧ (h (e + 1 + m)).gen.is_land_waypoint = true := by
    intro m
    induction m with
    | zero => intro _; exact ⟨rfl, hl⟩
    | succ m ih =>
      intro hm
      obtain ⟨i1, i2⟩ := ih (by omega)
      obtain ⟨c1, c2, _⟩ := calm_step ny _ _ _ (noit (e + 1 + m) (by omega) (by omega)) (calm _ (by omega) (by omega)) (r.step (e + 1 + m) (by omega)) i2
      exact ⟨by rw [show e + 1 + (m + 1) = e + 1 + m + 1 by omega, c1, i1], c2⟩
  obtain ⟨k1, k2⟩ := key (i - (e + 1)) (by omega)
  rw [show e + 1 + (i - (e + 1)) = i by omega] at k1 k2
  refine ⟨k1, k2, ?_⟩
  by_contra hi
  have := (callback_frame ny _ _ _ hi (r.step i (by omega))).1
  rw [d.way (i + 1) (by omega) (by omega), d.eval i (by omega) (le_refl _)] at this
  cases this

/-- The patch and the goal chosen at the evaluation. -/
theorem eval_choice {ny : V3 (Option K) → V3 (Option K) → Option K} {N : ℕ} {h : ℕ → SlpNode K} {ev : ℕ → SlpEvent K}
    (r : SlpRun ny N h ev) {l e i k : ℕ} (d : Descent h l e i k) (hk : k < N) (hl : (h i).gen.is_land_waypoint = true) (hi : (ev i).isIterate) :
    ∃ a b, PatchLandable (h i).gen a b ∧ (h (i + 1)).gen.landing_radius = 1 / 2 ∧ (h (i + 1)).gen.is_land_waypoint = true ∧
      ((a = ((h i).gen.grid.n / 2 : ℕ) ∧ b = ((h i).gen.grid.n / 2 : ℕ) ∧ (h (i + 1)).gen.goal = (h i).gen.goal) ∨
       (h (i + 1)).gen.goal = patchGoal (h i).gen (a - (h i).gen.smoothing_land_cell, b - (h i).gen.smoothing_land_cell)) := by
  have d1 := d.le; have d2 := d.ei; have d3 := d.ik
  have f := update_frame (h i).gen
  have hci := run_iterate r i (by omega) hi
  have hst := d.way (i + 1) (by omega) (by omega)
  have hj := d.eval i (by omega) (le_refl _)
  rcases calc_cases ny _ _ hci with ⟨_, e⟩ | ⟨_, t, v, e, hm⟩
  · rw [e, slpChoose_state] at hst
    exfalso
    revert hst
    cases ({ updateSlpState (h i).gen with trigger_reset := false } : Slp K).state <;> exact fun h => by cases h
  · rw [hj] at hm
    dsimp only at hm
    obtain ⟨km, _, _, hr, hc⟩ := runEvaluate_out _ _ _ hm
    have vs : v.state = .EVALUATE_GRID := by rw [km.state, f.1, hj]
    rcases hc with ⟨rfl, _⟩ | ⟨rfl, c, hc, hg⟩
    · rw [e, if_pos (by decide), slpChoose_state] at hst
      exfalso
      have : usmTable .GOTO slpTable v.state .NEXT1 = .GOTO_LAND := hst
      rw [vs] at this
      exact absurd this (by decide)
    · obtain ⟨hm, hrj⟩ := run_ok r i (by omega)
      refine ⟨_, _, landable_of_evaluate _ hm hrj c hc, ?_, ?_, ?_⟩
      · rw [e, if_pos (by decide)]; exact hr
      · rw [e, if_pos (by decide)]
        show v.is_land_waypoint = true
        rw [km.is_land, f.2.2.2.2.2.2.1]; exact hl
      · rw [e, if_pos (by decide)]
        show (_ ∧ _ ∧ v.goal = _) ∨ v.goal = _
        rcases hg with ⟨hcc, hg⟩ | hg
        · left
          rw [hg, f.2.2.2.2.2.2.2.1, hcc, f.2.2.1, f.2.2.2.1]
          exact ⟨by ring, by ring, rfl⟩
        · right
          rw [hg, add_sub_cancel_right, add_sub_cancel_right]
          unfold patchGoal
          rw [f.2.2.1, f.2.2.2.1, f.2.2.2.2.2.2.2.2.1]

/-- On the way to the site nothing changes. -/
theorem way_goal {ny : V3 (Option K) → V3 (Option K) → Option K} {N : ℕ} {h : ℕ → SlpNode K} {ev : ℕ → SlpEvent K}
    (r : SlpRun ny N h ev) {l e i k : ℕ} (d : Descent h l e i k) (hk : k < N) (hr1 : (h (i + 1)).gen.landing_radius = 1 / 2)
    (hl1 : (h (i + 1)).gen.is_land_waypoint = true) (calm : ∀ m, l ≤ m → m ≤ k → Undisturbed (h m) (ev m)) :
    ∃ gx gy px py, (h (i + 1)).gen.goal.x = some gx ∧ (h (i + 1)).gen.goal.y = some gy ∧ (h k).gen.position.x = some px ∧
        (h k).gen.position.y = some py ∧ (gx - px) ^ 2 + (gy - py) ^ 2 < (1 / 2) ^ 2 := by
  have d1 := d.le; have d2 := d.ei; have d3 := d.ik
  have keep : ∀ m, i + 1 + m ≤ k → (h (i + 1 + m)).gen.goal = (h (i + 1)).gen.goal ∧
      (h (i + 1 + m)).gen.landing_radius = 1 / 2 ∧ (h (i + 1 + m)).gen.is_land_waypoint = true := by
    intro m
    induction m with
    | zero => intro _; exact ⟨rfl, hr1, hl1⟩
    | succ m ih =>
      intro hd
      obtain ⟨i1, i2, i3⟩ := ih (by omega)
      have hst := d.way (i + 1 + m) (by omega) (by omega)
      have hst' := d.way (i + 1 + (m + 1)) (by omega) (by omega)
      have hs := r.step (i + 1 + m) (by omega)
      rw [show i + 1 + (m + 1) = i + 1 + m + 1 by omega] at hst' ⊢
      by_cases hi : (ev (i + 1 + m)).isIterate
      · have hcd := run_iterate r (i + 1 + m) (by omega) hi
        have fd := update_frame (h (i + 1 + m)).gen
        rcases calc_cases ny _ _ hcd with ⟨_, e⟩ | ⟨_, t, v, e, hm⟩
        · rw [e, slpChoose_state] at hst'
          exfalso
          revert hst'
          cases ({ updateSlpState (h (i + 1 + m)).gen with trigger_reset := false } : Slp K).state <;> exact fun h => by cases h
        · rw [hst] at hm
          dsimp only at hm
          obtain ⟨km, _, _, hgoal, _⟩ := runGoToLand_out ny _ _ _ hm
          have hrad : v.landing_radius = (updateSlpState (h (i + 1 + m)).gen).landing_radius := by
            unfold runGoToLand publish at hm
            dsimp only at hm
            split_ifs at hm <;> (cases hm; rfl)
          have g1 : v.goal = (h (i + 1)).gen.goal := by rw [hgoal, fd.2.2.2.2.2.2.2.1, i1]
          have g2 : v.landing_radius = 1 / 2 := by rw [hrad, update_radius _ i3, i2]
          have g3 : v.is_land_waypoint = true := by rw [km.is_land, fd.2.2.2.2.2.2.1, i3]
          rw [e]
          split_ifs
          · exact ⟨g1, g2, g3⟩
          · exact ⟨g1, g2, g3⟩
      · obtain ⟨c1, c2, _, c4, _⟩ := calm_step ny _ _ _ hi (calm _ (by omega) (by omega)) hs i3
        exact ⟨by rw [c1, i1], by rw [c4, i2], c2⟩
  obtain ⟨k1, k2, k3⟩ := keep (k - (i + 1)) (by omega)
  rw [show i + 1 + (k - (i + 1)) = k by omega] at k1 k2 k3
  have hw := (C47_enter_and_leave r k hk).1 (by rw [d.way k d.ik (le_refl _)]; decide) d.land
  have fk := update_frame (h k).gen
  have hw2 := hw.2.2
  unfold withinLandingRadius at hw2
  rw [fk.2.2.2.2.2.2.2.1, fk.2.2.2.2.2.2.2.2.1, update_radius _ k3, k2, k1] at hw2
  split at hw2
  · rename_i gx gy px py e1 e2 e3 e4
    exact ⟨gx, gy, px, py, e1, e2, e3, e4, hw2⟩
  · exact absurd hw2 id

/-- **C47, place (partial).** In every descent during which the autopilot's waypoint and its order to land stay the same, the vehicle starts to
land within 0.5 m (horizontally) of the patch that passed the evaluation: of the point as many cells away from `P` as the centre of the patch is from the
middle of the grid, where `P` is the vehicle's position at the first iteration of the loiter phase or at the evaluation.  (Without the condition on the
waypoint this is false: `C47_unchecked_landing_witness`.  A run with such a descent: the example at the end of this file.) -/
theorem C47_lands_at_patch_partial {ny : V3 (Option K) → V3 (Option K) → Option K} {N : ℕ} {h : ℕ → SlpNode K} {ev : ℕ → SlpEvent K}
    (r : SlpRun ny N h ev) {l e i k : ℕ} (d : Descent h l e i k) (hk : k < N) (hl : (h l).gen.is_land_waypoint = true)
    (calm : ∀ m, l ≤ m → m ≤ k → Undisturbed (h m) (ev m)) :
    ∃ (a b : ℤ) (q : ℕ) (Px Py px py : K), PatchLandable (h i).gen a b ∧ (ev q).isIterate ∧
      ((l ≤ q ∧ q ≤ e ∧ ∀ m, l ≤ m → m < q → ¬ (ev m).isIterate) ∨ q = i) ∧
      (h q).gen.position.x = some Px ∧ (h q).gen.position.y = some Py ∧
      (h k).gen.position.x = some px ∧ (h k).gen.position.y = some py ∧
      (px - (Px + ((a - ((h i).gen.grid.n / 2 : ℕ) : ℤ) : K) * (h i).gen.grid.cell_size)) ^ 2 +
      (py - (Py + ((b - ((h i).gen.grid.n / 2 : ℕ) : ℤ) : K) * (h i).gen.grid.cell_size)) ^ 2 < (1 / 2) ^ 2 := by
  obtain ⟨q, q1, q2, q3, q4, q5, q6⟩ := loiter_goal r d hk hl calm
  obtain ⟨e1, e2, e3⟩ := eval_goal r d hk q6 calm
  obtain ⟨a, b, c1, c2, c3, c4⟩ := eval_choice r d hk e2 e3
  obtain ⟨gx, gy, px, py, w1, w2, w3, w4, w5⟩ := way_goal r d hk c2 c3 calm
  rcases c4 with ⟨ea, eb, c4⟩ | c4
  · rw [c4, e1, q5] at w1 w2
    refine ⟨a, b, q, gx, gy, px, py, c1, q3, Or.inl ⟨q1, q2, q4⟩, w1, w2, w3, w4, ?_⟩
    rw [ea, eb, sub_self, Int.cast_zero, zero_mul, add_zero, add_zero, ← neg_sub gx px, ← neg_sub gy py, neg_sq, neg_sq]
    exact w5
  · rw [c4] at w1 w2
    unfold patchGoal at w1 w2
    dsimp only at w1 w2
    obtain ⟨Px, hPx, rfl⟩ := Option.map_eq_some_iff.mp w1
    obtain ⟨Py, hPy, rfl⟩ := Option.map_eq_some_iff.mp w2
    refine ⟨a, b, i, Px, Py, px, py, c1, e3, Or.inr rfl, hPx, hPy, w3, w4, ?_⟩
    rw [sub_add_cancel, sub_add_cancel] at w5
    rw [← neg_sub _ px, ← neg_sub _ py, neg_sq, neg_sq]
    exact w5

/-! ## The middle of the grid -/

/-- The middle of the grid is within half a cell of the lower corner of its middle cell. -/
theorem half_grid (g : Grid K) (hg : g.Sized) :
    -(g.cell_size / 2) < g.grid_size / 2 - ((g.n / 2 : ℕ) : K) * g.cell_size ∧ g.grid_size / 2 - ((g.n / 2 : ℕ) : K) * g.cell_size ≤ g.cell_size / 2 := by
  obtain ⟨h1, h2, h3⟩ := hg
  have hpos : 0 < g.grid_size / g.cell_size := div_pos h2 h1
  have hc : (0 : ℤ) ≤ ⌈g.grid_size / g.cell_size⌉ := Int.ceil_nonneg hpos.le
  have hn : ((g.n : ℕ) : ℤ) = ⌈g.grid_size / g.cell_size⌉ := by rw [h3]; exact Int.toNat_of_nonneg hc
  have hu : g.grid_size / g.cell_size ≤ (g.n : K) := by
    have := Int.le_ceil (g.grid_size / g.cell_size)
    rw [← hn] at this
    exact_mod_cast this
  have hl : (g.n : K) - 1 < g.grid_size / g.cell_size := by
    have := Int.ceil_lt_add_one (g.grid_size / g.cell_size)
    rw [← hn] at this
    have h4 : (g.n : K) < g.grid_size / g.cell_size + 1 := by exact_mod_cast this
    linarith
  have m1 : (2 : K) * ((g.n / 2 : ℕ) : K) ≤ (g.n : K) := by exact_mod_cast (by omega : 2 * (g.n / 2) ≤ g.n)
  have m2 : (g.n : K) ≤ 2 * ((g.n / 2 : ℕ) : K) + 1 := by exact_mod_cast (by omega : g.n ≤ 2 * (g.n / 2) + 1)
  rw [div_le_iff₀ h1] at hu
  rw [lt_div_iff₀ h1] at hl
  generalize ((g.n / 2 : ℕ) : K) = m at *
  have a1 := mul_le_mul_of_nonneg_right m1 h1.le
  have a2 := mul_le_mul_of_nonneg_right m2 h1.le
  constructor <;> nlinarith

/-! ## C107 -/

/-- The first event of the loiter phase: the observation starts with the grid then in use. -/
theorem start_of_loiter {ny : V3 (Option K) → V3 (Option K) → Option K} {N : ℕ} {h : ℕ → SlpNode K} {ev : ℕ → SlpEvent K}
    (r : SlpRun ny N h ev) {l : ℕ} (h0 : 0 < l) (hN : l ≤ N) (hb : (h (l - 1)).gen.state ≠ .LOITER) (hl : (h l).gen.state = .LOITER) :
    (h l).gen.start_seq = (h l).gen.grid_seq := by
  have hst := r.step (l - 1) (by omega)
  by_cases hi : (ev (l - 1)).isIterate
  · have hc := run_iterate r (l - 1) (by omega) hi
    rw [show l - 1 + 1 = l by omega] at hc
    obtain ⟨g1, _, g3⟩ := calc_seq ny _ _ hc
    rcases g3 hl with ⟨h1, _⟩ | ⟨_, h2⟩
    · exact absurd h1 hb
    · rw [h2, g1]
  · have := (callback_frame ny _ _ _ hi hst).1
    rw [show l - 1 + 1 = l by omega] at this
    rw [this] at hl
    exact absurd hl hb

theorem calm_node {S : ℕ → LandSys K} {ev : ℕ → LandEvent K} {m : ℕ}
    (calm : ∀ v, ev m = .node v → Undisturbed (S m).node v) : Undisturbed (S m).node (nodePart (S m) (ev m)) := by
  cases he : ev m with
  | planner e => trivial
  | lose => trivial
  | deliver =>
    unfold nodePart
    cases (S m).wire <;> trivial
  | node e =>
    have := calm e he
    cases e with
    | iterate => unfold nodePart; dsimp only; split_ifs <;> trivial
    | grid m => trivial
    | position p y => trivial
    | reconfigure a b c d f g => trivial
    | trajectory m => exact this
    | state mode armed => exact this

/-- The evidence for the patch chosen in a descent. -/
theorem descent_evidence {sqrt : K → K} {ny : V3 (Option K) → V3 (Option K) → Option K} {N : ℕ} {S : ℕ → LandSys K} {ev : ℕ → LandEvent K}
    (r : LandRun sqrt ny N S ev) (hs : ∀ k < N, (ev k).Sane) {l e i k : ℕ} (d : Descent (fun m => (S m).node) l e i k) (hk : k < N)
    (a b : ℤ) (hp : PatchLandable (S i).node.gen a b) (x y : ℤ) (hxy : InPatch (S i).node.gen.smoothing_land_cell a b x y) :
    ∃ T : Finset ℕ, (∀ t ∈ T, t < e ∧ (S l).node.gen.grid_seq ≤ (S t).seq ∧ (S t).seq < (S l).node.gen.grid_seq + 20 ∧
        ∃ c, ev t = .planner (.cloud c) ∧ MeasuredLandable (S (t + 1)).planner c x y) ∧
      ∀ beta thr, 0 ≤ beta → beta ≤ 1 → 0 ≤ thr →
        (∀ m, l ≤ m → m ≤ e → (S m).node.gen.beta = beta ∧ (S m).node.gen.can_land_thr = thr) → thr < 1 - beta ^ T.card := by
  have d0 := d.pos; have d1 := d.le; have d2 := d.ei; have d3 := d.ik
  have nr := node_run r
  obtain ⟨j, n, hjn, g1, g2, g3⟩ := (run_decision nr (fun m hm => node_flags r hs m hm) i (by omega)).eval (d.eval i (by omega) (le_refl _))
  have ej : j + n = e := by
    have l1 : j + n ≤ e := by
      by_contra hc
      have := g1 (j + n) (by omega) (le_refl _)
      rw [show (S (j + n)).node.gen.state = _ from d.eval (j + n) (by omega) (by omega)] at this
      cases this
    have l2 : e ≤ j + n := by
      by_contra hc
      have := g2 e (by omega) (by omega)
      rw [show (S e).node.gen.state = _ from d.loiter e (by omega) (le_refl _)] at this
      cases this
    omega
  have el : l ≤ j := by
    by_contra hc
    exact d.before (g1 (l - 1) (by omega) (by omega))
  obtain ⟨T, h1, h2⟩ := sightings_measured r hs j n (by omega) g1 x y
  have hstart : (S j).node.gen.start_seq = (S l).node.gen.grid_seq := by
    have e1 := loiter_start r l (j - l) (by omega) (fun m h1 h2 => d.loiter m h1 (by omega))
    rw [show l + (j - l) = j by omega] at e1
    rw [e1]
    exact start_of_loiter nr d0 (by omega) d.before (d.loiter l (le_refl _) d1)
  rw [hstart] at h1
  refine ⟨T, fun t ht => ?_, fun beta thr b0 b1 t0 hst => ?_⟩
  · rw [← ej]; exact h1 t ht
  · rw [h2]
    exact g3 beta thr b0 b1 t0 (fun m m1 m2 => hst m (by omega) (by omega)) x y (hp x y hxy).2

/-- **C107, near the patch.** In every run of the two nodes, for every descent (loiter, evaluation, way to the site, landing) during which
the autopilot's waypoint and its order to land stay the same: when the vehicle starts to land at `(px, py)`, there is a landing patch, with
centre `(a, b)`, all of whose cells were measured landable in clouds `T` (as many as C106 demands), and for each of these clouds taken with
the same grid sizes the vehicle is, along both axes, less than half a metre plus one cell away from the centre of the cell `(a, b)` of that cloud's
grid - plus the distance the vehicle moved between that cloud and the iteration `q` at which the landing goal was fixed. -/
theorem C107_lands_near_patch {sqrt : K → K} {ny : V3 (Option K) → V3 (Option K) → Option K} {N : ℕ} {S : ℕ → LandSys K} {ev : ℕ → LandEvent K}
    (r : LandRun sqrt ny N S ev) (hs : ∀ k < N, (ev k).Sane) {l e i k : ℕ} (d : Descent (fun m => (S m).node) l e i k) (hk : k < N)
    (hl : (S l).node.gen.is_land_waypoint = true)
    (calm : ∀ m v, l ≤ m → m ≤ k → ev m = .node v → Undisturbed (S m).node v) :
    ∃ (a b : ℤ) (q : ℕ) (Px Py px py : K), l ≤ q ∧ q ≤ i ∧ Iterates S ev q ∧
      (S q).node.gen.position.x = some Px ∧ (S q).node.gen.position.y = some Py ∧
      (S k).node.gen.position.x = some px ∧ (S k).node.gen.position.y = some py ∧
      ∀ x y, InPatch (S i).node.gen.smoothing_land_cell a b x y → ∃ T : Finset ℕ,
        (∀ t ∈ T, t < e ∧ (S l).node.gen.grid_seq ≤ (S t).seq ∧ (S t).seq < (S l).node.gen.grid_seq + 20 ∧
          (∃ c, ev t = .planner (.cloud c) ∧ MeasuredLandable (S (t + 1)).planner c x y) ∧
          ((S (t + 1)).planner.grid.grid_size = (S i).node.gen.grid.grid_size → (S (t + 1)).planner.grid.cell_size = (S i).node.gen.grid.cell_size →
            |px - ((S (t + 1)).planner.grid.min_x + (a + 1 / 2) * (S (t + 1)).planner.grid.cell_size)| <
              1 / 2 + (S (t + 1)).planner.grid.cell_size + |Px - (S (t + 1)).planner.pos.x| ∧
            |py - ((S (t + 1)).planner.grid.min_y + (b + 1 / 2) * (S (t + 1)).planner.grid.cell_size)| <
              1 / 2 + (S (t + 1)).planner.grid.cell_size + |Py - (S (t + 1)).planner.pos.y|)) ∧
        ∀ beta thr, 0 ≤ beta → beta ≤ 1 → 0 ≤ thr →
          (∀ m, l ≤ m → m ≤ e → (S m).node.gen.beta = beta ∧ (S m).node.gen.can_land_thr = thr) → thr < 1 - beta ^ T.card := by
  have d1 := d.le; have d2 := d.ei; have d3 := d.ik
  obtain ⟨a, b, q, Px, Py, px, py, t1, t2, t3, t4, t5, t6, t7, t8⟩ :=
    C47_lands_at_patch_partial (node_run r) d hk hl (fun m h1 h2 => calm_node (fun v hv => calm m v h1 h2 hv))
  refine ⟨a, b, q, Px, Py, px, py, ?_, ?_, nodePart_iterate.mp t2, t4, t5, t6, t7, fun x y hxy => ?_⟩
  · rcases t3 with h | h <;> omega
  · rcases t3 with h | h <;> omega
  obtain ⟨T, h1, h2⟩ := descent_evidence r hs d hk a b t1 x y hxy
  refine ⟨T, fun t ht => ?_, h2⟩
  obtain ⟨g1, g2, g3, c, hc, hm⟩ := h1 t ht
  refine ⟨g1, g2, g3, ⟨c, hc, hm⟩, fun eg ec => ?_⟩
  obtain ⟨-, -, -, -, m1, -, m2, -⟩ := hm
  obtain ⟨u1, u2⟩ := half_grid (S i).node.gen.grid (node_side r hs i (by omega)).sized
  rw [m1, m2, eg, ec]
  rw [Int.cast_sub, Int.cast_sub, Int.cast_natCast] at t8
  have hcell := (node_side r hs i (by omega)).sized.1
  generalize (S i).node.gen.grid.cell_size = cell at *
  generalize (S i).node.gen.grid.grid_size = G at *
  generalize (((S i).node.gen.grid.n / 2 : ℕ) : K) = m at *
  have key : ∀ (p P pose : K) (z : ℤ), |p - (P + ((z : K) - m) * cell)| < 1 / 2 →
      |p - (pose - G / 2 + ((z : K) + 1 / 2) * cell)| < 1 / 2 + cell + |P - pose| := by
    intro p P pose z hz
    rw [abs_lt] at hz ⊢
    have n1 := neg_abs_le (P - pose)
    have n2 := le_abs_self (P - pose)
    constructor <;> nlinarith
  have ax := abs_lt_of_sq_lt_sq (lt_of_le_of_lt (le_add_of_nonneg_right (sq_nonneg _)) t8) (by norm_num)
  have ay := abs_lt_of_sq_lt_sq (lt_of_le_of_lt (le_add_of_nonneg_left (sq_nonneg _)) t8) (by norm_num)
  exact ⟨key px Px _ a ax, key py Py _ b ay⟩

/-- **C107, on measured ground.** If moreover the vehicle hovers - the planner's pose was `p` at every cloud from the one in use at the start of
the loiter phase on, and the node's position stayed within `δ` of it along both axes - with unchanged grid sizes `G` and `cell`, and the patch is not too
small, then the very spot `(px, py)` at which the vehicle starts to land lies in a cell measured landable: there are a cell `(x, y)` whose square contains it
and a set `T` of clouds that all measured this cell landable, with `1 - β^|T|` above the threshold. -/
theorem C107_lands_on_measured_ground {sqrt : K → K} {ny : V3 (Option K) → V3 (Option K) → Option K} {N : ℕ} {S : ℕ → LandSys K} {ev : ℕ → LandEvent K}
    (r : LandRun sqrt ny N S ev) (hs : ∀ k < N, (ev k).Sane) {l e i k : ℕ} (d : Descent (fun m => (S m).node) l e i k) (hk : k < N)
    (hl : (S l).node.gen.is_land_waypoint = true)
    (calm : ∀ m v, l ≤ m → m ≤ k → ev m = .node v → Undisturbed (S m).node v) (p : V3 K) (delta G cell : K)
    (pose : ∀ t c, t < e → ev t = .planner (.cloud c) → (S l).node.gen.grid_seq ≤ (S t).seq → (S (t + 1)).planner.pos.x = p.x ∧
      (S (t + 1)).planner.pos.y = p.y ∧ (S (t + 1)).planner.grid.grid_size = G ∧ (S (t + 1)).planner.grid.cell_size = cell)
    (near : ∀ m, l ≤ m → m ≤ i → (∀ X, (S m).node.gen.position.x = some X → |X - p.x| ≤ delta) ∧ ∀ Y, (S m).node.gen.position.y = some Y → |Y - p.y| ≤ delta)
    (sizes : (S i).node.gen.grid.grid_size = G ∧ (S i).node.gen.grid.cell_size = cell)
    (big : 8 * (3 / 2 * cell + 1 / 2 + delta) ^ 2 ≤ ((2 * (S i).node.gen.smoothing_land_cell + 1) * cell) ^ 2) :
    ∃ (px py : K) (x y : ℤ), (S k).node.gen.position.x = some px ∧ (S k).node.gen.position.y = some py ∧
      (p.x - G / 2 + x * cell ≤ px ∧ px < p.x - G / 2 + (x + 1) * cell) ∧ (p.y - G / 2 + y * cell ≤ py ∧ py < p.y - G / 2 + (y + 1) * cell) ∧
      ∃ T : Finset ℕ, (∀ t ∈ T, t < e ∧ (S t).seq < (S l).node.gen.grid_seq + 20 ∧ ∃ c, ev t = .planner (.cloud c) ∧ MeasuredLandable (S (t + 1)).planner c x y ∧
          (S (t + 1)).planner.grid.InSquare x y px py) ∧
        ∀ beta thr, 0 ≤ beta → beta ≤ 1 → 0 ≤ thr →
          (∀ m, l ≤ m → m ≤ e → (S m).node.gen.beta = beta ∧ (S m).node.gen.can_land_thr = thr) → thr < 1 - beta ^ T.card := by
  have d1 := d.le; have d2 := d.ei; have d3 := d.ik
  obtain ⟨a, b, q, Px, Py, px, py, t1, t2, t3, t4, t5, t6, t7, t8⟩ :=
    C47_lands_at_patch_partial (node_run r) d hk hl (fun m h1 h2 => calm_node (fun v hv => calm m v h1 h2 hv))
  have hq : l ≤ q ∧ q ≤ i := by rcases t3 with h | h <;> omega
  have nx := (near q hq.1 hq.2).1 Px t4
  have ny' := (near q hq.1 hq.2).2 Py t5
  obtain ⟨u1, u2⟩ := half_grid (S i).node.gen.grid (node_side r hs i (by omega)).sized
  have hcell := (node_side r hs i (by omega)).sized.1
  rw [Int.cast_sub, Int.cast_sub, Int.cast_natCast] at t8
  rw [sizes.2] at t8 u1 u2 hcell
  rw [sizes.1] at u1 u2
  generalize (((S i).node.gen.grid.n / 2 : ℕ) : K) = m at *
  have ax := abs_lt_of_sq_lt_sq (lt_of_le_of_lt (le_add_of_nonneg_right (sq_nonneg _)) t8) (by norm_num)
  have ay := abs_lt_of_sq_lt_sq (lt_of_le_of_lt (le_add_of_nonneg_left (sq_nonneg _)) t8) (by norm_num)
  -- the cell under the vehicle
  have key : ∀ (z P o : K) (a : ℤ), |z - (P + ((a : K) - m) * cell)| < 1 / 2 → |P - o| ≤ delta → ∃ x : ℤ,
      (o - G / 2 + x * cell ≤ z ∧ z < o - G / 2 + (x + 1) * cell) ∧ (((x : K) - a) * cell) ^ 2 < (3 / 2 * cell + 1 / 2 + delta) ^ 2 := by
    intro z P o a hz hP
    have f1 := Int.floor_le ((z - (o - G / 2)) / cell)
    have f2 := Int.lt_floor_add_one ((z - (o - G / 2)) / cell)
    generalize ⌊(z - (o - G / 2)) / cell⌋ = x at *
    rw [le_div_iff₀ hcell] at f1
    rw [div_lt_iff₀ hcell] at f2
    rw [abs_lt] at hz
    rw [abs_le] at hP
    refine ⟨x, ⟨by linarith, by linarith⟩, ?_⟩
    apply sq_lt_sq'
    · nlinarith
    · nlinarith
  obtain ⟨x, hx, bx⟩ := key px Px p.x a ax nx
  obtain ⟨y, hy, by'⟩ := key py Py p.y b ay ny'
  have hxy : InPatch (S i).node.gen.smoothing_land_cell a b x y := by
    unfold InPatch
    have h3 : (4 * (((x : K) - a) ^ 2 + ((y : K) - b) ^ 2)) * cell ^ 2 < ((2 * (S i).node.gen.smoothing_land_cell + 1) : K) ^ 2 * cell ^ 2 := by nlinarith
    have h4 := lt_of_mul_lt_mul_right h3 (sq_nonneg cell)
    exact_mod_cast h4
  obtain ⟨T, h1, h2⟩ := descent_evidence r hs d hk a b t1 x y hxy
  refine ⟨px, py, x, y, t6, t7, hx, hy, T, fun t ht => ?_, h2⟩
  obtain ⟨g1, g2, g3, c, hc, hm⟩ := h1 t ht
  refine ⟨g1, g3, c, hc, hm, ?_⟩
  obtain ⟨p1, p2, p3, p4⟩ := pose t c g1 hc g2
  obtain ⟨-, -, -, -, m1, -, m2, -⟩ := hm
  unfold Grid.InSquare
  rw [m1, m2, p1, p2, p3, p4]
  exact ⟨hx.1, hx.2, hy.1, hy.2⟩

/-! ## A run -/

/-- All states of the run of a list of events. -/
def landScan (sqrt : K → K) (ny : V3 (Option K) → V3 (Option K) → Option K) : LandSys K → List (LandEvent K) → Option (List (LandSys K))
  | s, [] => some [s]
  | s, e :: es => (landStep sqrt ny s e).bind fun s' => (landScan sqrt ny s' es).map fun l => s :: l

theorem run_of_scan (sqrt : K → K) (ny : V3 (Option K) → V3 (Option K) → Option K) (es : List (LandEvent K)) (L : List (LandSys K))
    (h : landScan sqrt ny landInit es = some L) :
    LandRun sqrt ny es.length (fun k => L.getD k landInit) (fun k => es.getD k .lose) := by
  have main : ∀ (es : List (LandEvent K)) (s0 : LandSys K) (L : List (LandSys K)), landScan sqrt ny s0 es = some L →
      L.getD 0 landInit = s0 ∧ ∀ k < es.length, landStep sqrt ny (L.getD k landInit) (es.getD k .lose) = some (L.getD (k + 1) landInit) := by
    intro es
    induction es with
    | nil => intro s0 L h; cases h; exact ⟨rfl, fun k hk => absurd hk (by simp)⟩
    | cons e es ih =>
      intro s0 L h
      unfold landScan at h
      obtain ⟨s1, h1, h2⟩ := Option.bind_eq_some_iff.mp h
      obtain ⟨L', h3, rfl⟩ := Option.map_eq_some_iff.mp h2
      obtain ⟨a, b⟩ := ih s1 L' h3
      refine ⟨rfl, fun k hk => ?_⟩
      cases k with
      | zero => show landStep sqrt ny s0 e = some (L'.getD 0 landInit); rw [a]; exact h1
      | succ k =>
        rw [List.length_cons] at hk
        exact b k (by omega)
  obtain ⟨a, b⟩ := main es landInit L h
  exact ⟨a, b⟩

/-- Flat ground around the origin: a point in the middle of each cell of a `5 × 5` grid with cells of 2 m. -/
def wideGround : List (CloudPoint ℚ) :=
  (indices 5 5).map fun ij => ⟨some (2 * ((ij.1 : ℚ) - 2)), some (2 * ((ij.2 : ℚ) - 2)), some 0⟩

/-- The order to land at the origin. -/
def landOrder : SlpTrajectory ℚ := ⟨true, true, ⟨some 0, some 0, some 4⟩, nan3, ⟨some 0, some 0, some 0⟩, none, none, 21⟩

/-- A landing: configuration, the vehicle above the origin, the order to land; three clouds; the order and the mode again; nineteen
clouds whose grids are lost; three more. -/
def wideLanding : List (LandEvent ℚ) :=
  [.planner (.reconfigure 1 (1/10) (1/10) 10 2 (1/2) 0 70 0), .planner (.pose ⟨0, 0, 4⟩), .node (.reconfigure 0 (4/10) 4 1 2 2),
   .node (.position ⟨some 0, some 0, some 4⟩ (some 0)), .node (.trajectory landOrder)] ++
  (List.range 3).flatMap (fun _ => [.planner (.cloud wideGround), .deliver, .node .iterate]) ++
  [.node (.trajectory landOrder), .node (.state .AUTO_MISSION true)] ++
  (List.range 19).flatMap (fun _ => [.planner (.cloud []), .lose]) ++
  (List.range 3).flatMap (fun _ => [.planner (.cloud []), .deliver, .node .iterate])

/-- The states of the wide landing. -/
def wideStates : List SlpState :=
  List.replicate 8 .GOTO ++ List.replicate 3 .ALTITUDE_CHANGE ++ List.replicate 46 .LOITER ++ List.replicate 3 .EVALUATE_GRID ++ List.replicate 3 .GOTO_LAND ++ [.LAND]

/-- What the example needs to know about each state after the configuration. -/
def wideCheck (s : LandSys ℚ) : Bool :=
  s.node.gen.is_land_waypoint && decide (s.node.gen.position.x = some 0 ∧ s.node.gen.position.y = some 0 ∧ s.planner.pos.x = 0 ∧ s.planner.pos.y = 0 ∧
    s.planner.grid.grid_size = 10 ∧ s.planner.grid.cell_size = 2 ∧ s.node.gen.smoothing_land_cell = 2 ∧
    s.node.goal_visualization = ⟨some 0, some 0, some 0⟩ ∧ s.node.gen.goal.x ≠ none ∧ s.node.gen.goal.y ≠ none)

/-- A landing on a small patch: `4 × 4` cells of 25 cm, of which only the nine of the middle patch have points. -/
def smallGround : List (CloudPoint ℚ) :=
  (indices 3 3).map fun ij => ⟨some (1/4 * ((ij.1 : ℚ) - 1/2)), some (1/4 * ((ij.2 : ℚ) - 1/2)), some 0⟩

/-- The landing on the small patch; before the last iteration the vehicle is 40 cm off. -/
def smallLanding : List (LandEvent ℚ) :=
  [.planner (.reconfigure 1 (1/10) (1/10) 1 (1/4) (1/2) 0 70 0), .planner (.pose ⟨0, 0, 4⟩), .node (.reconfigure 0 (4/10) 4 1 2 1),
   .node (.position ⟨some 0, some 0, some 4⟩ (some 0)), .node (.trajectory landOrder)] ++
  (List.range 3).flatMap (fun _ => [.planner (.cloud smallGround), .deliver, .node .iterate]) ++
  (List.range 19).flatMap (fun _ => [.planner (.cloud smallGround), .lose]) ++
  (List.range 2).flatMap (fun _ => [.planner (.cloud smallGround), .deliver, .node .iterate]) ++
  [.planner (.cloud smallGround), .deliver, .node (.position ⟨some (-2/5), some 0, some 4⟩ (some 0)), .node .iterate]

/-- The theorems apply: the wide landing meets all their hypotheses, with the loiter phase from 11 to 56, the evaluation at 59 and the
landing after event 62. -/
example : ∃ S : ℕ → LandSys ℚ, ∃ ev : ℕ → LandEvent ℚ, LandRun (fun v => v) (fun _ _ => none) 63 S ev ∧ (∀ k < 63, (ev k).Sane) ∧
    Descent (fun m => (S m).node) 11 56 59 62 ∧ (S 11).node.gen.is_land_waypoint = true ∧
    (∀ m v, 11 ≤ m → m ≤ 62 → ev m = .node v → Undisturbed (S m).node v) ∧
    (∀ t c, t < 56 → ev t = .planner (.cloud c) → (S 11).node.gen.grid_seq ≤ (S t).seq → (S (t + 1)).planner.pos.x = 0 ∧
      (S (t + 1)).planner.pos.y = 0 ∧ (S (t + 1)).planner.grid.grid_size = 10 ∧ (S (t + 1)).planner.grid.cell_size = 2) ∧
    (∀ m, 11 ≤ m → m ≤ 59 → (∀ X, (S m).node.gen.position.x = some X → |X - 0| ≤ 0) ∧ ∀ Y, (S m).node.gen.position.y = some Y → |Y - 0| ≤ 0) ∧
    ((S 59).node.gen.grid.grid_size = 10 ∧ (S 59).node.gen.grid.cell_size = 2) ∧
    8 * (3 / 2 * 2 + 1 / 2 + 0) ^ 2 ≤ (((2 * (S 59).node.gen.smoothing_land_cell + 1) : ℚ) * 2) ^ 2 := by
  have hscan : ∃ L, landScan (fun v => v) (fun _ _ => none) (landInit : LandSys ℚ) wideLanding = some L ∧
      L.map (fun s => s.node.gen.state) = wideStates ∧ (L.drop 6).all wideCheck = true ∧
      (L.getD 59 landInit).node.gen.grid.grid_size = 10 ∧ (L.getD 59 landInit).node.gen.grid.cell_size = 2 := by
    have : ∃ L ∈ landScan (fun v => v) (fun _ _ => none) (landInit : LandSys ℚ) wideLanding,
        L.map (fun s => s.node.gen.state) = wideStates ∧ (L.drop 6).all wideCheck = true ∧
        (L.getD 59 landInit).node.gen.grid.grid_size = 10 ∧ (L.getD 59 landInit).node.gen.grid.cell_size = 2 := by decide +kernel
    exact this
  obtain ⟨L, hL, hst, hck, hg1, hg2⟩ := hscan
  have hlen : L.length = 64 := by
    have := congrArg List.length hst
    rw [List.length_map] at this
    exact this.trans (by decide)
  have state : ∀ m < 64, (L.getD m landInit).node.gen.state = wideStates.getD m .GOTO := by
    intro m hm
    rw [← hst, List.getD_eq_getElem _ _ (by omega), List.getD_eq_getElem _ _ (by rw [List.length_map]; omega), List.getElem_map]
  have check : ∀ m, 6 ≤ m → m < 64 → wideCheck (L.getD m landInit) = true := by
    intro m h1 h2
    rw [List.all_eq_true] at hck
    apply hck
    rw [List.getD_eq_getElem _ _ (by omega)]
    have : L[m] = (L.drop 6)[m - 6]'(by rw [List.length_drop]; omega) := by
      rw [List.getElem_drop]
      congr 1
      omega
    rw [this]
    exact List.getElem_mem _
  have facts : ∀ m, 6 ≤ m → m < 64 → (L.getD m landInit).node.gen.is_land_waypoint = true ∧ (L.getD m landInit).node.gen.position.x = some 0 ∧
      (L.getD m landInit).node.gen.position.y = some 0 ∧ (L.getD m landInit).planner.pos.x = 0 ∧ (L.getD m landInit).planner.pos.y = 0 ∧
      (L.getD m landInit).planner.grid.grid_size = 10 ∧ (L.getD m landInit).planner.grid.cell_size = 2 ∧ (L.getD m landInit).node.gen.smoothing_land_cell = 2 ∧
      (L.getD m landInit).node.goal_visualization = ⟨some 0, some 0, some 0⟩ ∧ (L.getD m landInit).node.gen.goal.x ≠ none ∧ (L.getD m landInit).node.gen.goal.y ≠ none := by
    intro m h1 h2
    have := check m h1 h2
    unfold wideCheck at this
    rw [Bool.and_eq_true, decide_eq_true_iff] at this
    exact this
  refine ⟨fun k => L.getD k landInit, fun k => wideLanding.getD k .lose, run_of_scan _ _ wideLanding L hL, ?_, ?_, (facts 11 (by omega) (by omega)).1, ?_, ?_, ?_, ⟨hg1, hg2⟩, ?_⟩
  · intro k hk
    have hall : ∀ e ∈ wideLanding, e.Sane := by
      intro e he
      simp only [wideLanding, List.mem_append, List.mem_cons, List.not_mem_nil, or_false, List.mem_flatMap, List.mem_range] at he
      rcases he with ((((rfl | rfl | rfl | rfl | rfl) | ⟨_, _, rfl | rfl | rfl⟩) | (rfl | rfl)) | ⟨_, _, rfl | rfl⟩) | ⟨_, _, rfl | rfl | rfl⟩
      · exact ⟨by norm_num, by norm_num, by norm_num, by norm_num⟩
      all_goals trivial
    show (wideLanding.getD k .lose).Sane
    rw [List.getD_eq_getElem _ _ (show k < wideLanding.length from lt_of_lt_of_eq hk (by decide))]
    exact hall _ (List.getElem_mem _)
  · refine ⟨by omega, by omega, by omega, by omega, ?_, fun m h1 h2 => ?_, fun m h1 h2 => ?_, fun m h1 h2 => ?_, ?_⟩
    · show (L.getD 10 landInit).node.gen.state ≠ _
      rw [state 10 (by omega)]; decide
    · show (L.getD m landInit).node.gen.state = _
      rw [state m (by omega)]
      have : ∀ m < 57, 11 ≤ m → wideStates.getD m .GOTO = .LOITER := by decide
      exact this m (by omega) h1
    · show (L.getD m landInit).node.gen.state = _
      rw [state m (by omega)]
      interval_cases m <;> rfl
    · show (L.getD m landInit).node.gen.state = _
      rw [state m (by omega)]
      interval_cases m <;> rfl
    · show (L.getD 63 landInit).node.gen.state = _
      rw [state 63 (by omega)]; decide
  · intro m v h1 h2 he
    have f := facts m (by omega) (by omega)
    have hall : ∀ e ∈ wideLanding.drop 5, ∀ v, e = .node v → v = .iterate ∨ v = .trajectory landOrder ∨ v = .state .AUTO_MISSION true := by
      intro e he v hv
      rw [show wideLanding.drop 5 = (List.range 3).flatMap (fun _ => [.planner (.cloud wideGround), .deliver, .node .iterate]) ++
        [.node (.trajectory landOrder), .node (.state .AUTO_MISSION true)] ++
        (List.range 19).flatMap (fun _ => [.planner (.cloud []), .lose]) ++
        (List.range 3).flatMap (fun _ => [.planner (.cloud []), .deliver, .node .iterate]) from rfl] at he
      simp only [List.mem_append, List.mem_cons, List.not_mem_nil, or_false, List.mem_flatMap, List.mem_range] at he
      rcases he with ((⟨_, _, rfl | rfl | rfl⟩ | (rfl | rfl)) | ⟨_, _, rfl | rfl⟩) | ⟨_, _, rfl | rfl | rfl⟩ <;> cases hv
      · exact Or.inl rfl
      · exact Or.inr (Or.inl rfl)
      · exact Or.inr (Or.inr rfl)
      · exact Or.inl rfl
    have hmem : wideLanding.getD m .lose ∈ wideLanding.drop 5 := by
      have hl : wideLanding.length = 63 := by decide
      rw [List.getD_eq_getElem _ _ (by omega)]
      have : wideLanding[m]'(by omega) = (wideLanding.drop 5)[m - 5]'(by rw [List.length_drop]; omega) := by
        rw [List.getElem_drop]
        congr 1
        omega
      rw [this]
      exact List.getElem_mem _
    rcases hall _ hmem v he with rfl | rfl | rfl
    · trivial
    · refine Or.inr ⟨?_, f.2.2.2.2.2.2.2.2.2.1, f.2.2.2.2.2.2.2.2.2.2⟩
      rw [f.2.2.2.2.2.2.2.2.1]
      decide +kernel
    · exact ⟨by decide, rfl⟩
  · intro t c h1 h2 h3
    by_cases ht : 5 ≤ t
    · have f := facts (t + 1) (by omega) (by omega)
      exact ⟨f.2.2.2.1, f.2.2.2.2.1, f.2.2.2.2.2.1, f.2.2.2.2.2.2.1⟩
    · exfalso
      interval_cases t <;> cases h2
  · intro m h1 h2
    have f := facts m (by omega) (by omega)
    refine ⟨fun X hX => ?_, fun Y hY => ?_⟩
    · have h := f.2.1.symm.trans hX
      rw [← Option.some.inj h]; norm_num
    · have h := f.2.2.1.symm.trans hY
      rw [← Option.some.inj h]; norm_num
  · dsimp only
    rw [(facts 59 (by omega) (by omega)).2.2.2.2.2.2.2.1]
    norm_num

/-- **C107 (finding).** With a small patch the statement fails: the acceptance radius of half a metre is fixed.  Here only the nine cells of the middle
patch (75 cm wide) have any points; the vehicle starts to land 40 cm from the goal, in the cell `(0, 2)`, for which no cloud had a single point and which
was never reported landable. -/
theorem C107_small_patch_witness :
    ∃ L ∈ landScan (fun v => v) (fun _ _ => none) (landInit : LandSys ℚ) smallLanding,
      (∀ s ∈ L.getLast?, s.node.gen.state = .LAND ∧ s.node.gen.position.x = some (-2/5) ∧ s.node.gen.position.y = some 0 ∧
        s.planner.grid.computeGridIndexes (-2/5) 0 = (0, 2)) ∧
      ∀ s ∈ L, s.planner.grid.counter 0 2 = 0 ∧ s.planner.grid.land 0 2 = 0 ∧ s.node.gen.grid.land 0 2 = 0 := by decide +kernel

/-- Flat ground in nine cells of 50 cm next to the vehicle: all points at most 1.25 m in front of it. -/
def sideGround : List (CloudPoint ℚ) :=
  (indices 3 3).map fun ij => ⟨some (1 / 2 * (ij.1 : ℚ) + 1 / 4), some (1 / 2 * (ij.2 : ℚ) - 1 / 4), some 0⟩

/-- A landing next to the vehicle during which the grid is reconfigured, from `6 × 6` cells of 50 cm to `6 × 6` cells of 3 m, after the evidence was collected; at the
end the vehicle has flown to its landing goal. -/
def scaleLanding : List (LandEvent ℚ) :=
  [.planner (.reconfigure 1 (1/10) (1/10) 3 (1/2) (1/2) 0 70 0), .planner (.pose ⟨0, 0, 4⟩), .node (.reconfigure 0 (4/10) 4 1 2 1),
   .node (.position ⟨some 0, some 0, some 4⟩ (some 0)), .node (.trajectory landOrder)] ++
  (List.range 4).flatMap (fun _ => [.planner (.cloud sideGround), .deliver, .node .iterate]) ++
  (List.range 18).flatMap (fun _ => [.planner (.cloud sideGround), .lose]) ++
  [.planner (.reconfigure 1 (1/10) (1/10) 18 3 (1/2) 0 70 0)] ++
  (List.range 3).flatMap (fun _ => [.planner (.cloud sideGround), .deliver, .node .iterate]) ++
  [.node (.position ⟨some 3, some 0, some 4⟩ (some 0)), .planner (.cloud sideGround), .deliver, .node .iterate]

/-- **C107 (finding): another scale.** The evidence of a landing is kept when the sizes of grid and cells change but not the number of cells (only the number of
rows is compared). Here the evidence for a patch half a metre away, collected with cells of 50 cm, is used with cells of 3 m: the vehicle is sent 3 m away and
lands there, although every point of every cloud is at most 1.25 m in front of the vehicle, so that the ground at the landing site was never seen. -/
theorem C107_other_scale_witness :
    (∃ L ∈ landScan (fun v => v) (fun _ _ => none) (landInit : LandSys ℚ) scaleLanding,
      ∀ s ∈ L.getLast?, s.node.gen.state = .LAND ∧ s.node.gen.position.x = some 3 ∧ s.node.gen.position.y = some 0 ∧
        s.node.gen.goal.x = some 3 ∧ s.node.gen.goal.y = some 0) ∧
    (∀ e ∈ scaleLanding, e.Sane) ∧
    ∀ c, .planner (.cloud c) ∈ scaleLanding → ∀ p ∈ c, ∃ x, p.x = some x ∧ x ≤ 5 / 4 := by
  refine ⟨by decide +kernel, ?_, ?_⟩
  · intro e he
    simp only [scaleLanding, List.mem_append, List.mem_cons, List.not_mem_nil, or_false, List.mem_flatMap, List.mem_range] at he
    rcases he with (((((rfl | rfl | rfl | rfl | rfl) | ⟨_, _, rfl | rfl | rfl⟩) | ⟨_, _, rfl | rfl⟩) | rfl) | ⟨_, _, rfl | rfl | rfl⟩) | (rfl | rfl | rfl | rfl)
    · exact ⟨by norm_num, by norm_num, by norm_num, by norm_num⟩
    all_goals first | trivial | exact ⟨by norm_num, by norm_num, by norm_num, by norm_num⟩
  · intro c hc
    have hcg : c = sideGround := by
      simp [scaleLanding] at hc
      rcases hc with h | h | h | h
      exacts [h.2, h.2, h.2, h]
    rw [hcg]
    have : ∀ p ∈ sideGround, ∃ x ∈ p.x, x ≤ 5 / 4 := by decide +kernel
    intro p hp
    obtain ⟨x, hx, hle⟩ := this p hp
    exact ⟨x, hx, hle⟩

end Landing
end Avoidance
