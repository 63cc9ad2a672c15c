import Mathlib.Tactic.IntervalCases
import Verif.SlpLaw

/-!
# The landing procedure gets there (C82)
-/

namespace Avoidance
namespace Landing

set_option linter.unusedSectionVars false

variable {K : Type*} [Field K] [LinearOrder K] [IsStrictOrderedRing K] [FloorRing K]

/-! ## Specification -/

/-- Round `k`: the pose, the grid published by the planner, and the command loop. -/
def landingRound (sqrt : K → K) (p : ℕ → V3 (Option K)) (yaw : ℕ → Option K) (P : ℕ → Planner K) (seq : ℤ) (k : ℕ) : List (SlpEvent K) :=
  [.position (p k) (yaw k), .grid (publishSerialGrid sqrt (P k) (seq + k)), .iterate]

/-- The cells at most `s` cells from the middle cell of a grid of `n × n`, along both axes. -/
def Central (n s : ℕ) (i j : ℤ) : Prop := |i - ((n / 2 : ℕ) : ℤ)| ≤ s ∧ |j - ((n / 2 : ℕ) : ℤ)| ≤ s

theorem central_inGrid {n s : ℕ} (h : 2 * s + 1 ≤ n) {i j : ℤ} (hc : Central n s i j) : InGrid n i j := by
  have h1 := abs_le.mp hc.1
  have h2 := abs_le.mp hc.2
  unfold InGrid
  omega

/-- The grid has the given size, and around its middle it is flat at height `g` (up to `ε`) and landable. -/
def FlatLandable (P : Planner K) (n s : ℕ) (g ε : K) : Prop :=
  P.previous.Sized ∧ P.previous.n = n ∧
    ∀ i j, Central n s i j → |P.previous.mean i j - g| ≤ ε ∧ P.previous.land i j = 1

/-! ## One round -/

/-- What an iteration without a reset keeps. -/
theorem calc_frame (ny : V3 (Option K) → V3 (Option K) → Option K) (w w' : Slp K) (h : calculateWaypoint ny w = some w')
    (hr : w.trigger_reset = false) (hm : MaskOk w) :
    w'.trigger_reset = false ∧ w'.is_land_waypoint = w.is_land_waypoint ∧ w'.beta = w.beta ∧ w'.can_land_thr = w.can_land_thr ∧
    w'.smoothing_land_cell = w.smoothing_land_cell ∧ w'.grid = w.grid ∧ w'.hyst_n = w.grid.n ∧
    w'.loiter_height = w.loiter_height ∧ w'.vertical_range_error = w.vertical_range_error := by
  obtain ⟨f1, f2, f3, f4, f5, f6, f7, f8, f9, f10, f11, f12, f13, f14, f15, f16, f17⟩ := update_frame w
  obtain ⟨y1, y2, y3, y4⟩ := update_frame2 w
  have hc := update_consistent w hm
  rcases calc_cases ny w w' h with ⟨h0, -⟩ | ⟨-, t, v, rfl, hq⟩
  · rw [hr] at h0; cases h0
  have key : KeepsMost (updateSlpState w) v ∧ v.loiter_height = w.loiter_height ∧ v.vertical_range_error = w.vertical_range_error := by
    cases hs : w.state <;> rw [hs] at hq <;> dsimp only at hq
    · refine ⟨(runGoTo_out ny _ _ _ hq).1, ?_⟩
      unfold runGoTo at hq
      obtain ⟨a, -, hd⟩ := Option.bind_eq_some_iff.mp hq
      have hg : (goToPublish ny (updateSlpState w)).loiter_height = w.loiter_height ∧
          (goToPublish ny (updateSlpState w)).vertical_range_error = w.vertical_range_error := by
        unfold goToPublish publish
        split_ifs <;> exact ⟨y3, y4⟩
      unfold goToDecide at hd
      split_ifs at hd
      · cases hd; exact hg
      · obtain ⟨x, hx, e⟩ := Option.map_eq_some_iff.mp hd
        cases e
        unfold exploreNext exploreGoal exploreAdvance exploreStart at hx
        dsimp only at hx
        split_ifs at hx <;>
        · obtain ⟨d, _, rfl⟩ := Option.map_eq_some_iff.mp hx
          exact hg
      · cases hd; exact hg
    · refine ⟨(runLoiter_out _ _ _ hq).1, ?_⟩
      unfold runLoiter loiterDecide loiterPrepare publish at hq
      split_ifs at hq <;> cases hq <;> exact ⟨y3, y4⟩
    · refine ⟨(runLand_out _ _ _ hq).1, ?_⟩
      unfold runLand publish landPrepare at hq
      split_ifs at hq <;> cases hq <;> exact ⟨y3, y4⟩
    · refine ⟨(runAltitude_out _ _ _ hq).1, ?_⟩
      unfold runAltitudeChange at hq
      obtain ⟨a, -, hd⟩ := Option.map_eq_some_iff.mp hq
      unfold altitudeDecide at hd
      dsimp only at hd
      split_ifs at hd <;> cases hd <;> exact ⟨y3, y4⟩
    · refine ⟨(runEvaluate_out _ _ _ hq).1, ?_⟩
      unfold runEvaluateGrid evaluateDecide at hq
      obtain ⟨b, -, hq⟩ := Option.bind_eq_some_iff.mp hq
      split_ifs at hq
      · cases hq; exact ⟨y3, y4⟩
      · obtain ⟨r, -, hq⟩ := Option.map_eq_some_iff.mp hq
        cases r <;> cases hq <;> exact ⟨y3, y4⟩
    · refine ⟨(runGoToLand_out ny _ _ _ hq).1, ?_⟩
      unfold runGoToLand publish at hq
      dsimp only at hq
      split_ifs at hq <;> cases hq <;> exact ⟨y3, y4⟩
  obtain ⟨k, k1, k2⟩ := key
  have res : v.trigger_reset = false ∧ v.is_land_waypoint = w.is_land_waypoint ∧ v.beta = w.beta ∧ v.can_land_thr = w.can_land_thr ∧
    v.smoothing_land_cell = w.smoothing_land_cell ∧ v.grid = w.grid ∧ v.hyst_n = w.grid.n ∧
    v.loiter_height = w.loiter_height ∧ v.vertical_range_error = w.vertical_range_error := by
    refine ⟨by rw [k.trigger, f2, hr], by rw [k.is_land, f7], by rw [k.beta, f5], by rw [k.thr, f6], by rw [k.smoothing, f4],
      by rw [k.grid, f3], by rw [k.hyst_n, hc.hyst_n, f3], k1, k2⟩
  split_ifs <;> exact res

/-- The fixed facts of the scene. -/
structure Scene (w : Slp K) (n : ℕ) (beta thr lh vre : K) (s : ℕ) : Prop where
  trigger : w.trigger_reset = false
  land : w.is_land_waypoint = true
  beta : w.beta = beta
  thr : w.can_land_thr = thr
  lh : w.loiter_height = lh
  vre : w.vertical_range_error = vre
  s : w.smoothing_land_cell = s
  mask : MaskOk w
  result : ResultOk w
  sized : w.grid.Sized

/-- The messages of a round. -/
theorem round_messages (ny : V3 (Option K) → V3 (Option K) → Option K) (sqrt : K → K) (st : SlpNode K) (n : ℕ) (g ε beta thr lh vre : K) (s : ℕ)
    (hsn : 2 * s + 1 ≤ n)
    (hsc : Scene st.gen n beta thr lh vre s) (p : V3 (Option K)) (y : Option K) (P : Planner K) (hP : FlatLandable P n s g ε) (q : ℤ) :
    ∃ s1 g1, loopM (slpStep ny) st [.position p y, .grid (publishSerialGrid sqrt P q)] = some s1 ∧
      s1.gen = { st.gen with position := p, yaw := y, grid := g1, grid_seq := q } ∧ g1.n = n ∧ g1.Sized ∧
      (∀ i j, Central n s i j → |g1.mean i j - g| ≤ ε ∧ g1.land i j = 1) ∧ Scene s1.gen n beta thr lh vre s := by
  obtain ⟨s', h1, h2, -, -, h5, -, h7, h8⟩ := C70_grid_round_trip sqrt P q hP.1 (positionCallback st p y) hsc.sized
  rw [hP.2.1] at h2 h8
  have hx : ∃ g1, s'.gen = { st.gen with position := p, yaw := y, grid := g1, grid_seq := q } := by
    unfold gridCallback at h1
    obtain ⟨g1, -, e⟩ := Option.map_eq_some_iff.mp h1
    exact ⟨g1, by rw [← e]; rfl⟩
  obtain ⟨g1, e⟩ := hx
  have eg : s'.gen.grid = g1 := by rw [e]
  refine ⟨s', g1, ?_, e, by rw [← eg]; exact h2, by rw [← eg]; exact h7, fun i j hij => ?_, ?_⟩
  · show ((some (positionCallback st p y)).bind _) = _
    rw [Option.bind_some]
    show (gridCallback _ _).bind _ = _
    rw [h1]
    rfl
  · have := h8 i j (central_inGrid hsn hij)
    rw [eg] at this
    exact ⟨by rw [this.1]; exact (hP.2.2 i j hij).1, this.2.trans (hP.2.2 i j hij).2⟩
  · rw [e]
    exact ⟨hsc.trigger, hsc.land, hsc.beta, hsc.thr, hsc.lh, hsc.vre, hsc.s, hsc.mask, hsc.result, by rw [← eg]; exact h7⟩

/-- On a flat grid the height of the landing area is the height of the ground. -/
theorem flat_height (w : Slp K) (g ε : K)
    (hf : ∀ i j, Central w.grid.n w.smoothing_land_cell i j → |w.grid.mean i j - g| ≤ ε) (a : K) (ha : heightPercentile w 80 = some a) : |a - g| ≤ ε := by
  have hmem := (C51_rank w 80 a ha).1
  unfold centralMeans at hmem
  obtain ⟨ij, hij, e⟩ := List.mem_map.mp hmem
  rw [mem_indices] at hij
  rw [← e]
  apply hf
  unfold Central
  have h1 := hij.1
  have h2 := hij.2
  rw [abs_le, abs_le]
  omega

/-- The scene goes on. -/
theorem scene_calc (ny : V3 (Option K) → V3 (Option K) → Option K) (w w' : Slp K) (n : ℕ) (beta thr lh vre : K) (s : ℕ)
    (h : calculateWaypoint ny w = some w') (hsc : Scene w n beta thr lh vre s) : Scene w' n beta thr lh vre s := by
  obtain ⟨a1, a2, a3, a4, a5, a6, a7, a8, a9⟩ := calc_frame ny w w' h hsc.trigger hsc.mask
  have hk := calc_keeps ny w w' h hsc.mask hsc.result
  exact ⟨a1, a2.trans hsc.land, a3.trans hsc.beta, a4.trans hsc.thr, a8.trans hsc.lh, a9.trans hsc.vre, a5.trans hsc.s, hk.1, hk.2,
    by rw [a6]; exact hsc.sized⟩

/-- The evidence survives the adjustments before an iteration. -/
theorem update_hyst_same (w : Slp K) (hl : w.is_land_waypoint = true) (hn : w.grid.n = w.hyst_n) :
    (updateSlpState w).hyst = w.hyst := by
  have e1 : (updateHysteresisSize (updateMask w)).is_land_waypoint = true := by
    unfold updateHysteresisSize updateMask
    split_ifs <;> exact hl
  have e2 : (updateMask w).grid.n = (updateMask w).hyst_n := by
    unfold updateMask
    split_ifs <;> exact hn
  unfold updateSlpState updateNotLanding
  rw [if_pos e1]
  unfold updateHysteresisSize
  rw [if_neg (not_not.mpr e2)]
  unfold updateMask
  split_ifs <;> rfl

/-! ## The phases -/

/-- Where the procedure is before round `k`. -/
def Phase (p : ℕ → V3 (Option K)) (seq : ℤ) (n s : ℕ) (beta : K) (k : ℕ) (w : Slp K) : Prop :=
  (k = 0 ∧ w.state = .GOTO ∧ w.decision_taken = false ∧ (∃ c, Explored w c) ∧ Within (acceptanceRadius w) w.goal (p 0)) ∨
  (k = 1 ∧ w.state = .ALTITUDE_CHANGE ∧ w.hyst_n = n ∧ ∀ i j, w.hyst i j = 0) ∨
  (k = 2 ∧ w.state = .LOITER ∧ w.hyst_n = n ∧ w.start_seq = seq + 1 ∧ w.state_changed = true ∧ ∀ i j, w.hyst i j = 0) ∨
  (3 ≤ k ∧ k ≤ 22 ∧ w.state = .LOITER ∧ w.hyst_n = n ∧ w.start_seq = seq + 1 ∧ w.state_changed = false ∧ w.goal = p 2 ∧
    ∀ i j, Central n s i j → w.hyst i j = 1 - beta ^ (k - 2)) ∨
  (k = 23 ∧ w.state = .EVALUATE_GRID ∧ w.hyst_n = n ∧ w.goal = p 2 ∧ ∀ i j, Central n s i j → w.result i j = 1) ∨
  (k = 24 ∧ w.state = .GOTO_LAND ∧ w.goal = p 2 ∧ w.landing_radius = 1 / 2) ∨
  (k = 25 ∧ w.state = .LAND)

theorem loopM_append {S A : Type*} (f : S → A → Option S) (s : S) (a b : List A) :
    loopM f s (a ++ b) = (loopM f s a).bind fun s' => loopM f s' b := by
  induction a generalizing s with
  | nil => rfl
  | cons x a ih =>
    show (f s x).bind _ = ((f s x).bind _).bind _
    cases f s x with
    | none => rfl
    | some t => exact ih t

theorem phase_step (ny : V3 (Option K) → V3 (Option K) → Option K) (sqrt : K → K) (st : SlpNode K) (n : ℕ)
    (g ε beta thr lh vre : K) (s : ℕ) (p : ℕ → V3 (Option K)) (yaw : ℕ → Option K) (P : ℕ → Planner K) (seq : ℤ)
    (hs1 : 1 ≤ s) (hsn : 2 * s + 1 ≤ n) (ht0 : 0 ≤ thr) (htb : thr < 1 - beta ^ 20)
    (hz : ∃ z, (p 1).z = some z ∧ |(|z - g| - lh)| + ε < vre) (hp : Within (1 / 2) (p 2) (p 24))
    (k : ℕ) (hk : k < 25) (hP : FlatLandable (P k) n s g ε) (hsc : Scene st.gen n beta thr lh vre s)
    (hph : Phase p seq n s beta k st.gen) :
    ∃ st', loopM (slpStep ny) st (landingRound sqrt p yaw P seq k) = some st' ∧ Scene st'.gen n beta thr lh vre s ∧
      Phase p seq n s beta (k + 1) st'.gen := by
  obtain ⟨s1, g1, hm, e, gn, gs, gf, hsc1⟩ := round_messages ny sqrt st n g ε beta thr lh vre s hsn hsc (p k) (yaw k) (P k) hP (seq + k)
  have w1 : s1.gen.grid.n = n := by rw [e]; exact gn
  have wf : ∀ i j, Central n s i j → |s1.gen.grid.mean i j - g| ≤ ε ∧ s1.gen.grid.land i j = 1 := by rw [e]; exact gf
  have wp : s1.gen.position = p k := by rw [e]
  have wq : s1.gen.grid_seq = seq + k := by rw [e]
  -- it is enough to run one iteration
  suffices hsuf : ∃ w', calculateWaypoint ny s1.gen = some w' ∧ Phase p seq n s beta (k + 1) w' by
    obtain ⟨w', hw, hph'⟩ := hsuf
    refine ⟨{ s1 with gen := w', grid_received := false }, ?_, scene_calc ny _ _ n beta thr lh vre s hw hsc1, hph'⟩
    have : landingRound sqrt p yaw P seq k =
        [.position (p k) (yaw k), .grid (publishSerialGrid sqrt (P k) (seq + k))] ++ [.iterate] := rfl
    rw [this, loopM_append, hm, Option.bind_some]
    show ((calculateWaypoint ny s1.gen).map _).bind _ = _
    rw [hw]
    rfl
  have hn : 2 * s1.gen.smoothing_land_cell + 1 ≤ s1.gen.grid.n := by rw [hsc1.s, w1]; exact hsn
  have hdef : ∀ c, Explored s1.gen c → ∃ w', calculateWaypoint ny s1.gen = some w' := fun c hc =>
    calc_defined ny s1.gen hsc1.mask hsc1.result c hc hn (by rw [hsc1.s]; exact hs1)
  have hdef' : s1.gen.state ≠ .GOTO → ∃ w', calculateWaypoint ny s1.gen = some w' := by
    intro hng
    -- the exploration counters do not matter outside GOTO
    have key : ∃ w', calculateWaypoint ny s1.gen = some w' := by
      have hper : ∀ x : Slp K, x.grid = s1.gen.grid → x.smoothing_land_cell = s1.gen.smoothing_land_cell → ∃ v, heightPercentile x 80 = some v := by
        intro x e1 e2
        rw [C51_defined_iff, e1, e2]
        exact ⟨hn, by rw [hsc1.s]; exact hs1⟩
      have f := update_frame s1.gen
      have hru : ResultOk (updateSlpState s1.gen) := by
        rcases update_result s1.gen with ⟨e, _⟩ | e
        · unfold ResultOk; rw [e]; exact hsc1.result
        · unfold ResultOk; rw [e]; exact fun _ _ => Or.inl rfl
      suffices hx : ∃ x, runCurrentState ny (updateSlpState s1.gen) = some x by
        obtain ⟨x, hx⟩ := hx
        unfold calculateWaypoint
        rw [hx]; exact ⟨_, rfl⟩
      unfold runCurrentState
      rw [if_neg (by rw [f.2.1, hsc1.trigger]; decide)]
      rw [← f.1] at hng
      cases hst : (updateSlpState s1.gen).state <;> dsimp only
      · exact absurd hst hng
      · exact ⟨_, rfl⟩
      · exact ⟨_, rfl⟩
      · obtain ⟨a, ha⟩ := hper (altitudePrepare (updateSlpState s1.gen)) f.2.2.1 f.2.2.2.1
        unfold runAltitudeChange
        rw [ha]; exact ⟨_, rfl⟩
      · obtain ⟨t, v, hv, _⟩ := C48_evaluation (updateSlpState s1.gen) (update_consistent _ hsc1.mask) hru (by rw [f.2.2.1, f.2.2.2.1]; exact hn)
        rw [hv]; exact ⟨_, rfl⟩
      · exact ⟨_, rfl⟩
    exact key
  have hflat : ∀ a, heightPercentile s1.gen 80 = some a → |a - g| ≤ ε := fun a ha =>
    flat_height s1.gen g ε (fun i j hij => (wf i j (by rw [← w1, ← hsc1.s]; exact hij)).1) a ha
  rcases hph with ⟨rfl, q1, q2, ⟨c, q3⟩, q4⟩ | ⟨rfl, q1, q2, q3⟩ | ⟨rfl, q1, q2, q3, q4, q5⟩ | ⟨k1, k2, q1, q2, q3, q4, q5, q6⟩ |
    ⟨rfl, q1, q2, q3, q4⟩ | ⟨rfl, q1, q2, q3⟩ | ⟨rfl, -⟩
  · have st1 : s1.gen.state = .GOTO := by rw [e]; exact q1
    obtain ⟨w', hw⟩ := hdef c (by unfold Explored at q3 ⊢; rw [e]; exact q3)
    obtain ⟨-, h2, -, -, -⟩ := C81_goto ny _ _ hw hsc1.trigger st1
    have hst : w'.state = .ALTITUDE_CHANGE := by
      rw [h2]
      refine ⟨hsc1.land, by rw [e]; exact q2, ?_⟩
      have er : acceptanceRadius s1.gen = acceptanceRadius st.gen := by rw [e]; rfl
      have eg : s1.gen.goal = st.gen.goal := by rw [e]
      rw [er, eg, wp]
      exact q4
    refine ⟨w', hw, Or.inr (Or.inl ⟨rfl, hst, ?_, ?_⟩)⟩
    · rw [(calc_frame ny _ _ hw hsc1.trigger hsc1.mask).2.2.2.2.2.2.1, w1]
    · rcases calc_summary ny _ _ hw with ⟨ht, -⟩ | ⟨-, hc⟩
      · rw [hsc1.trigger] at ht; cases ht
      · rcases hc with ⟨-, hc | ⟨-, -, hc⟩⟩ | ⟨hx, -⟩ | ⟨hx, -⟩ | ⟨hx, -⟩ | ⟨hx, -⟩ | ⟨hx, -⟩
        · rw [hst] at hc; cases hc
        · intro i j; rw [hc]
        all_goals (rw [st1] at hx; cases hx)
  · have st1 : s1.gen.state = .ALTITUDE_CHANGE := by rw [e]; exact q1
    obtain ⟨w', hw⟩ := hdef' (by rw [st1]; decide)
    obtain ⟨a, ha, -, h2, -, h4⟩ := C81_altitude ny _ _ hw hsc1.trigger st1
    have hst : w'.state = .LOITER := by
      rw [h2, hsc1.lh, hsc1.vre, wp]
      obtain ⟨z, hz1, hz2⟩ := hz
      refine ⟨z, hz1, lt_of_le_of_lt ?_ hz2⟩
      have e1 : |(|z - a| - lh)| ≤ |(|z - g| - lh)| + |(|z - a| - |z - g|)| := by
        have := abs_add_le (|z - g| - lh) (|z - a| - |z - g|)
        rwa [show |z - g| - lh + (|z - a| - |z - g|) = |z - a| - lh by ring] at this
      have e2 : |(|z - a| - |z - g|)| ≤ |a - g| := by
        have := abs_abs_sub_abs_le_abs_sub (z - a) (z - g)
        rwa [show z - a - (z - g) = -(a - g) by ring, abs_neg] at this
      have e3 := hflat a ha
      linarith
    refine ⟨w', hw, Or.inr (Or.inr (Or.inl ⟨rfl, hst, ?_, ?_, (h4 hst).2, ?_⟩))⟩
    · rw [(calc_frame ny _ _ hw hsc1.trigger hsc1.mask).2.2.2.2.2.2.1, w1]
    · rw [(h4 hst).1, wq]; rfl
    · rcases calc_summary ny _ _ hw with ⟨ht, -⟩ | ⟨-, hc⟩
      · rw [hsc1.trigger] at ht; cases ht
      · rcases hc with ⟨hx, -⟩ | ⟨-, -, hc⟩ | ⟨hx, -⟩ | ⟨hx, -⟩ | ⟨hx, -⟩ | ⟨hx, -⟩
        · rw [st1] at hx; cases hx
        · intro i j
          rw [hc, update_hyst_same _ hsc1.land (by rw [w1, e]; exact q2.symm), e]
          exact q3 i j
        all_goals (rw [st1] at hx; cases hx)
  · have st1 : s1.gen.state = .LOITER := by rw [e]; exact q1
    have ss : s1.gen.start_seq = seq + 1 := by rw [e]; exact q3
    have hh : s1.gen.grid.n = s1.gen.hyst_n := by rw [w1, e]; exact q2.symm
    have sch : s1.gen.state_changed = true := by rw [e]; exact q4
    obtain ⟨w', hw⟩ := hdef' (by rw [st1]; decide)
    obtain ⟨-, -, h3, h4, h5, h6, h7, -⟩ := C81_loiter ny _ _ hw hsc1.trigger st1
    rw [if_pos sch, wp] at h3
    have hno : ¬ (w'.state = .EVALUATE_GRID) := by
      rw [h4, wq, ss]
      push_cast
      rw [show seq + 2 - (seq + 1) = 1 by ring]
      decide
    rcases h5 with h5 | ⟨h5, h5'⟩
    · exact absurd h5 hno
    refine ⟨w', hw, Or.inr (Or.inr (Or.inr (Or.inl ⟨by omega, by omega, h5, ?_, h6.trans ss, h5', h3, fun i j hij => ?_⟩)))⟩
    · rw [(calc_frame ny _ _ hw hsc1.trigger hsc1.mask).2.2.2.2.2.2.1, w1]
    · rw [h7 hsc1.land hh h5 i j, (wf i j hij).2, hsc1.beta]
      have : s1.gen.hyst i j = 0 := by rw [e]; exact q5 i j
      rw [this]
      norm_num
  · have st1 : s1.gen.state = .LOITER := by rw [e]; exact q1
    have ss : s1.gen.start_seq = seq + 1 := by rw [e]; exact q3
    have hh : s1.gen.grid.n = s1.gen.hyst_n := by rw [w1, e]; exact q2.symm
    have sch : s1.gen.state_changed = false := by rw [e]; exact q4
    have hyy : ∀ i j, Central n s i j → s1.gen.hyst i j = 1 - beta ^ (k - 2) := by rw [e]; exact q6
    obtain ⟨w', hw⟩ := hdef' (by rw [st1]; decide)
    obtain ⟨-, -, h3, h4, h5, h6, h7, h8⟩ := C81_loiter ny _ _ hw hsc1.trigger st1
    rw [if_neg (by rw [sch]; decide)] at h3
    have hgoal : w'.goal = p 2 := by rw [h3, e]; exact q5
    rw [wq, ss, show seq + (k : ℤ) - (seq + 1) = (k : ℤ) - 1 by ring, abs_of_nonneg (by omega)] at h4
    by_cases hlast : k = 22
    · have hst : w'.state = .EVALUATE_GRID := by rw [h4]; omega
      refine ⟨w', hw, Or.inr (Or.inr (Or.inr (Or.inr (Or.inl ⟨by omega, hst, ?_, hgoal, fun i j hij => ?_⟩))))⟩
      · rw [(calc_frame ny _ _ hw hsc1.trigger hsc1.mask).2.2.2.2.2.2.1, w1]
      · rw [h8 hsc1.land hh (by rw [hsc1.thr]; exact ht0) hst i j, hyy i j hij, hsc1.thr, hlast]
        exact if_pos htb
    · have hno : ¬ (w'.state = .EVALUATE_GRID) := by rw [h4]; omega
      rcases h5 with h5 | ⟨h5, h5'⟩
      · exact absurd h5 hno
      refine ⟨w', hw, Or.inr (Or.inr (Or.inr (Or.inl ⟨by omega, by omega, h5, ?_, h6.trans ss, h5', hgoal, fun i j hij => ?_⟩)))⟩
      · rw [(calc_frame ny _ _ hw hsc1.trigger hsc1.mask).2.2.2.2.2.2.1, w1]
      · rw [h7 hsc1.land hh h5 i j, (wf i j hij).2, hsc1.beta, hyy i j hij, show k + 1 - 2 = (k - 2) + 1 by omega, pow_succ]
        push_cast
        ring
  · have st1 : s1.gen.state = .EVALUATE_GRID := by rw [e]; exact q1
    have hh : s1.gen.grid.n = s1.gen.hyst_n := by rw [w1, e]; exact q2.symm
    obtain ⟨w', hw⟩ := hdef' (by rw [st1]; decide)
    obtain ⟨-, h2, -, h4⟩ := C81_evaluate ny _ _ hw hsc1.trigger st1 hsc1.mask hsc1.result hh hn
    have hland : PatchLandable s1.gen ((s1.gen.grid.n / 2 : ℕ) : ℤ) ((s1.gen.grid.n / 2 : ℕ) : ℤ) := by
      intro i j hij
      have hb := inPatch_bounds hij
      have hin : Central n s i j := by unfold Central; rw [abs_le, abs_le]; rw [w1, hsc1.s] at hb; omega
      refine ⟨by rw [← hh, w1]; exact central_inGrid hsn hin, ?_⟩
      have := q4 i j hin
      rw [e]; exact this
    rcases h4 with ⟨-, h4, -, h5⟩ | ⟨h4, -⟩ | ⟨-, -, -, h4, -⟩
    · refine ⟨w', hw, Or.inr (Or.inr (Or.inr (Or.inr (Or.inr (Or.inl ⟨rfl, h4, ?_, h2⟩)))))⟩
      rw [h5, e]; exact q3
    · exact absurd hland h4
    · exact absurd hland h4
  · have st1 : s1.gen.state = .GOTO_LAND := by rw [e]; exact q1
    obtain ⟨w', hw⟩ := hdef' (by rw [st1]; decide)
    obtain ⟨-, h2, -, -⟩ := C81_goto_land ny _ _ hw hsc1.trigger st1
    refine ⟨w', hw, Or.inr (Or.inr (Or.inr (Or.inr (Or.inr (Or.inr ⟨rfl, ?_⟩)))))⟩
    rw [h2, if_pos hsc1.land, wp]
    have e1 : s1.gen.landing_radius = 1 / 2 := by rw [e]; exact q3
    have e2 : s1.gen.goal = p 2 := by rw [e]; exact q2
    rw [e1, e2]
    exact hp
  · omega

/-- **C82.** The landing procedure gets there, and nothing undefined happens on the way: let a landing waypoint be in
force that has not been decided on and no reset be pending (the other hypotheses on `s₀` hold in every run), the vehicle
within the acceptance radius of the waypoint, and then let the planner publish grid after grid, each with the square of
`2s+1` cells around its middle (`s` the radius of the patch) flat at height `g` up to `ε` and landable - whatever the rest of
the grid - while the vehicle is in the range of the loiter height (by more than `ε`) and stays (between the third and the last
round) within half a metre. If 20 sightings are enough evidence (`thr < 1 - β²⁰`), the node is landing after 25
rounds. -/
theorem C82_lands (ny : V3 (Option K) → V3 (Option K) → Option K) (sqrt : K → K) (s₀ : SlpNode K) (n : ℕ) (g ε : K)
    (p : ℕ → V3 (Option K)) (yaw : ℕ → Option K) (P : ℕ → Planner K) (seq : ℤ)
    (hm : MaskOk s₀.gen) (hr : ResultOk s₀.gen) (hx : ∃ c, Explored s₀.gen c) (hz : s₀.gen.grid.Sized)
    (hs1 : 1 ≤ s₀.gen.smoothing_land_cell) (hsn : 2 * s₀.gen.smoothing_land_cell + 1 ≤ n)
    (ht0 : 0 ≤ s₀.gen.can_land_thr) (htb : s₀.gen.can_land_thr < 1 - s₀.gen.beta ^ 20)
    (hstate : s₀.gen.state = .GOTO) (hreset : s₀.gen.trigger_reset = false) (hland : s₀.gen.is_land_waypoint = true)
    (hdec : s₀.gen.decision_taken = false)
    (hflat : ∀ k < 25, FlatLandable (P k) n s₀.gen.smoothing_land_cell g ε)
    (hgoal : Within (acceptanceRadius s₀.gen) s₀.gen.goal (p 0))
    (hheight : ∃ z, (p 1).z = some z ∧ |(|z - g| - s₀.gen.loiter_height)| + ε < s₀.gen.vertical_range_error)
    (hstay : Within (1 / 2) (p 2) (p 24)) :
    ∃ s, loopM (slpStep ny) s₀ ((List.range 25).flatMap (landingRound sqrt p yaw P seq)) = some s ∧ s.gen.state = .LAND := by
  have key : ∀ k ≤ 25, ∃ s, loopM (slpStep ny) s₀ ((List.range k).flatMap (landingRound sqrt p yaw P seq)) = some s ∧
      Scene s.gen n s₀.gen.beta s₀.gen.can_land_thr s₀.gen.loiter_height s₀.gen.vertical_range_error s₀.gen.smoothing_land_cell ∧
      Phase p seq n s₀.gen.smoothing_land_cell s₀.gen.beta k s.gen := by
    intro k
    induction k with
    | zero =>
      intro _
      exact ⟨s₀, rfl, ⟨hreset, hland, rfl, rfl, rfl, rfl, rfl, hm, hr, hz⟩, Or.inl ⟨rfl, hstate, hdec, hx, hgoal⟩⟩
    | succ k ih =>
      intro hk
      obtain ⟨s, h1, h2, h3⟩ := ih (by omega)
      obtain ⟨s', h4, h5, h6⟩ := phase_step ny sqrt s n g ε _ _ _ _ _ p yaw P seq hs1 hsn ht0 htb hheight hstay k (by omega) (hflat k (by omega)) h2 h3
      refine ⟨s', ?_, h5, h6⟩
      rw [List.range_succ, List.flatMap_append, loopM_append, h1, Option.bind_some, List.flatMap_cons, List.flatMap_nil, List.append_nil]
      exact h4
  obtain ⟨s, h1, -, h3⟩ := key 25 le_rfl
  refine ⟨s, h1, ?_⟩
  rcases h3 with ⟨h, -⟩ | ⟨h, -⟩ | ⟨h, -⟩ | ⟨-, h, -⟩ | ⟨h, -⟩ | ⟨h, -⟩ | ⟨-, h⟩
  all_goals first | exact h | omega

/-! ## The finding: a decision that outlives its landing -/

/-- **C82, finding.** A decision to land that survives a reset blocks the node: in GOTO with a decision "can land" taken,
every iteration with the landing waypoint in force leaves the state, the decision and the goal as they are — wherever the
vehicle is and whatever the grid says. -/
theorem C82_stuck (ny : V3 (Option K) → V3 (Option K) → Option K) (w w' : Slp K) (h : calculateWaypoint ny w = some w')
    (hr : w.trigger_reset = false) (hs : w.state = .GOTO) (hl : w.is_land_waypoint = true) (hd : w.decision_taken = true)
    (hc : w.can_land = true) :
    w'.state = .GOTO ∧ w'.decision_taken = true ∧ w'.can_land = true ∧ w'.is_land_waypoint = true ∧ w'.goal = w.goal ∧ w'.trigger_reset = false := by
  obtain ⟨-, h2, h3, h4, -⟩ := C81_goto ny w w' h hr hs
  have hno : w'.state ≠ .ALTITUDE_CHANGE := by
    intro e
    have := (h2.mp e).2.1
    rw [hd] at this; cases this
  have hst : w'.state = .GOTO := by
    rcases h3 with h3 | h3
    · exact absurd h3 hno
    · exact h3
  have hg := h4 (by rintro ⟨-, -, h, -⟩; rw [hc] at h; cases h)
  obtain ⟨p1, p2, p3, p4, p5, p6, p7, p8, p9, p10⟩ := goToPublish_spec ny w
  have f := update_frame w
  rcases calc_cases ny w w' h with ⟨h0, -⟩ | ⟨-, t, v, rfl, hm⟩
  · rw [hr] at h0; cases h0
  rw [hs] at hm
  dsimp only at hm
  have hk := (runGoTo_out ny _ _ _ hm).1
  unfold runGoTo at hm
  obtain ⟨a, -, hdd⟩ := Option.bind_eq_some_iff.mp hm
  unfold goToDecide at hdd
  dsimp only at hdd
  rw [if_neg (by rintro ⟨-, -, h⟩; rw [p7, hl, hd] at h; cases h), if_neg (by rintro ⟨-, -, -, h⟩; rw [p8, hl, hc] at h; cases h)] at hdd
  obtain ⟨e1, e2⟩ := Prod.mk.inj (Option.some_inj.mp hdd)
  subst e1
  have ht : v.trigger_reset = false := by rw [hk.trigger, f.2.1, hr]
  subst e2
  rw [if_neg (by decide)] at hst hg ⊢
  refine ⟨hst, ?_, ?_, ?_, hg.1, ht⟩
  · show (goToPublish ny (updateSlpState w)).decision_taken = true
    rw [p7, hl, hd]; rfl
  · show (goToPublish ny (updateSlpState w)).can_land = true
    rw [p8, hc, Bool.or_true]
  · exact p6.trans hl

/-- **C82, finding, reached.** Landing is aborted by a mode change and ordered again before the next iteration (AUTO.LAND
after another mode): the reset throws the state machine back to GOTO but the old decision stays, and by `C82_stuck` the
vehicle never lands while the order stands; here after 40 more rounds at the same place with the same grids, it still
does not. -/
theorem C82_stuck_witness :
    ((slpRunList (flatApproach ++ [.state .other true, .state .AUTO_LAND true, .iterate])).map
      (fun s => (s.gen.state, s.gen.decision_taken, s.gen.can_land, s.gen.is_land_waypoint, s.gen.trigger_reset))) =
      some (.GOTO, true, true, true, false) ∧
    ((slpRunList (flatApproach ++ [.state .other true, .state .AUTO_LAND true, .iterate] ++
      (List.range 40).flatMap (fun k => [.grid (flatGrid (31 + k)), .iterate]))).map (fun s => s.gen.state)) = some .GOTO := by
  decide +kernel

/-- The hypotheses of `C82_lands` are met: a flat 3 × 3 grid, a vehicle hovering 4 m above it. -/
example :
    let P : Planner ℚ := { (plannerInit : Planner ℚ) with previous := { Grid.new 3 1 with land := fun _ _ => 1 } }
    let s₀ : SlpNode ℚ := trajectoryCallback (slpReconfigure slpInit (9/10) (4/10) 4 1 2 1) (landMessage 0 4 0)
    FlatLandable P 3 s₀.gen.smoothing_land_cell 0 (1 / 10) ∧ MaskOk s₀.gen ∧ ResultOk s₀.gen ∧ Explored s₀.gen 0 ∧ s₀.gen.grid.Sized ∧ 1 ≤ s₀.gen.smoothing_land_cell ∧
    2 * s₀.gen.smoothing_land_cell + 1 ≤ 3 ∧ 0 ≤ s₀.gen.can_land_thr ∧ s₀.gen.can_land_thr < 1 - s₀.gen.beta ^ 20 ∧
    s₀.gen.state = .GOTO ∧ s₀.gen.trigger_reset = false ∧ s₀.gen.is_land_waypoint = true ∧ s₀.gen.decision_taken = false ∧
    Within (acceptanceRadius s₀.gen) s₀.gen.goal ⟨some 1, some 0, some 4⟩ ∧
    |(|(4 : ℚ) - 0| - s₀.gen.loiter_height)| + 1 / 10 < s₀.gen.vertical_range_error := by
  refine ⟨⟨?_, ?_, fun i j _ => ⟨(show |(0 : ℚ) - 0| ≤ 1 / 10 by norm_num), rfl⟩⟩, ⟨6, rfl, rfl⟩, fun i j => Or.inl rfl, Or.inl ⟨rfl, rfl, rfl⟩, ?_, ?_, ?_, ?_, ?_, ?_, ?_, ?_, ?_,
    ⟨0, 0, 1, 0, ?_, ?_, rfl, rfl, ?_⟩, ?_⟩
  all_goals first | decide +kernel | (unfold Grid.Sized; decide +kernel)

end Landing
end Avoidance
