import Verif.LandingSystem
import Verif.SlpProgress

/-!
# The landing nodes never leave their memory (C120)

Whole histories of the two landing nodes: `none` is an access outside a matrix or a vector, or an operation on matrices of different sizes.
-/

namespace Avoidance
namespace Landing

set_option linter.unusedSectionVars false

variable {K : Type*} [Field K] [LinearOrder K] [IsStrictOrderedRing K] [FloorRing K]

/-! ## Specification -/

/-- A configuration of the planner node (SafeLandingPlannerNode.cfg) that makes grids of at least `n` rows. -/
structure PlannerConfig (K : Type*) where
  n_points : K
  std_dev : K
  mean_diff : K
  grid_size : K
  cell_size : K
  alpha : K
  smoothing : ℤ
  max_diff : ℤ
  min_land : ℤ

def PlannerConfig.event (c : PlannerConfig K) : LandEvent K :=
  .planner (.reconfigure c.n_points c.std_dev c.mean_diff c.grid_size c.cell_size c.alpha c.smoothing c.max_diff c.min_land)

/-- The sizes are positive and the filter constant is between 0 and 1 (the ranges of the configuration). -/
def PlannerConfig.Ok (c : PlannerConfig K) : Prop := 0 < c.grid_size ∧ 0 < c.cell_size ∧ 0 ≤ c.alpha ∧ c.alpha ≤ 1

/-- The number of rows of the grid. -/
def PlannerConfig.rows (c : PlannerConfig K) : ℕ := ⌈c.grid_size / c.cell_size⌉.toNat

/-- A configuration of the waypoint generator node (WaypointGeneratorNode.cfg). -/
structure GeneratorConfig (K : Type*) where
  beta : K
  thr : K
  loiter_height : K
  vertical_range_error : K
  spiral_width : K
  patch : ℕ

def GeneratorConfig.event (c : GeneratorConfig K) : LandEvent K :=
  .node (.reconfigure c.beta c.thr c.loiter_height c.vertical_range_error c.spiral_width c.patch)

/-- The patches of the landing site have at least one ring of cells, at most `S`, and `2 S + 1` cells fit into every grid. -/
def FitsEvent (S : ℕ) (e : LandEvent K) : Prop :=
  (∀ c : PlannerConfig K, e = c.event → c.Ok ∧ 2 * S + 1 ≤ c.rows) ∧ ∀ c : GeneratorConfig K, e = c.event → 1 ≤ c.patch ∧ c.patch ≤ S

/-! ## Invariants -/

structure PlannerSafe (S : ℕ) (s : Planner K) : Prop where
  inv : PlannerInv s
  cfg : 2 * S + 1 ≤ ⌈s.cfg_grid_size / s.cfg_cell_size⌉.toNat
  big : s.size_update = true ∨ 2 * S + 1 ≤ s.grid.n

structure NodeSafe (S : ℕ) (v : SlpNode K) : Prop where
  mask : MaskOk v.gen
  result : ResultOk v.gen
  explored : ∃ c, Explored v.gen c
  sized : v.gen.grid.Sized
  patch : 1 ≤ v.gen.smoothing_land_cell ∧ v.gen.smoothing_land_cell ≤ S
  big : v.grid_received = true → 2 * S + 1 ≤ v.gen.grid.n

structure SysSafe (sqrt : K → K) (S : ℕ) (s : LandSys K) : Prop where
  planner : PlannerSafe S s.planner
  wire : ∀ m ∈ s.wire, ∃ (p : Planner K) (q : ℤ), m = publishSerialGrid sqrt p q ∧ p.previous.Sized ∧ 2 * S + 1 ≤ p.previous.n
  node : NodeSafe S s.node

/-- An iteration keeps the grid and the patch size. -/
theorem calc_grid (ny : V3 (Option K) → V3 (Option K) → Option K) (w w' : Slp K) (h : calculateWaypoint ny w = some w') (hm : MaskOk w) :
    w'.grid = w.grid ∧ w'.smoothing_land_cell = w.smoothing_land_cell := by
  cases hr : w.trigger_reset with
  | false =>
    obtain ⟨-, -, -, -, h5, h6, -⟩ := calc_frame ny w w' h hr hm
    exact ⟨h6, h5⟩
  | true =>
    obtain ⟨-, -, f3, f4, -⟩ := update_frame w
    rcases calc_cases ny w w' h with ⟨-, rfl⟩ | ⟨h0, -⟩
    · exact ⟨f3, f4⟩
    · rw [hr] at h0; cases h0

theorem NodeSafe.iterate {S : ℕ} {v : SlpNode K} (h : NodeSafe S v) (ny : V3 (Option K) → V3 (Option K) → Option K) (hg : v.grid_received = true) :
    ∃ v', slpStep ny v .iterate = some v' ∧ NodeSafe S v' := by
  obtain ⟨c, hc⟩ := h.explored
  obtain ⟨w', hw⟩ := calc_defined ny v.gen h.mask h.result c hc (by have := h.big hg; have := h.patch.2; omega) h.patch.1
  refine ⟨_, by show (calculateWaypoint ny v.gen).map _ = _; rw [hw]; rfl, ?_⟩
  obtain ⟨k1, k2⟩ := calc_keeps ny _ _ hw h.mask h.result
  obtain ⟨g1, g2⟩ := calc_grid ny _ _ hw h.mask
  obtain ⟨c', hc', -⟩ := explore_calc ny _ _ c hc hw
  exact ⟨k1, k2, ⟨c', hc'⟩, by show w'.grid.Sized; rw [g1]; exact h.sized, by show 1 ≤ w'.smoothing_land_cell ∧ w'.smoothing_land_cell ≤ S; rw [g2]; exact h.patch, fun h => by cases h⟩

/-- The callbacks but that of the grid. -/
theorem NodeSafe.callback {S : ℕ} {v : SlpNode K} (h : NodeSafe S v) (ny : V3 (Option K) → V3 (Option K) → Option K) (e : SlpEvent K) (h1 : ∀ m, e ≠ .grid m) (h2 : e ≠ .iterate)
    (h3 : ∀ a b c d f p, e = .reconfigure a b c d f p → 1 ≤ p ∧ p ≤ S) : ∃ v', slpStep ny v e = some v' ∧ NodeSafe S v' := by
  obtain ⟨c, hc⟩ := h.explored
  cases e with
  | grid m => exact absurd rfl (h1 m)
  | iterate => exact absurd rfl h2
  | position p y => exact ⟨_, rfl, ⟨h.mask, h.result, ⟨c, hc⟩, h.sized, h.patch, h.big⟩⟩
  | reconfigure a b d f g p => exact ⟨_, rfl, ⟨h.mask, h.result, ⟨c, hc⟩, h.sized, h3 _ _ _ _ _ _ rfl, h.big⟩⟩
  | trajectory m =>
    refine ⟨_, rfl, ?_⟩
    unfold trajectoryCallback
    dsimp only
    split_ifs <;> exact ⟨h.mask, h.result, ⟨c, hc⟩, h.sized, h.patch, h.big⟩
  | state mode armed =>
    refine ⟨_, rfl, ?_⟩
    unfold stateCallback
    cases mode <;> cases armed <;> exact ⟨h.mask, h.result, ⟨c, hc⟩, h.sized, h.patch, h.big⟩

/-- The callback of the grid. -/
theorem NodeSafe.grid {S : ℕ} {v : SlpNode K} (h : NodeSafe S v) (ny : V3 (Option K) → V3 (Option K) → Option K) (sqrt : K → K) (p : Planner K) (q : ℤ) (hp : p.previous.Sized)
    (hn : 2 * S + 1 ≤ p.previous.n) : ∃ v', slpStep ny v (.grid (publishSerialGrid sqrt p q)) = some v' ∧ NodeSafe S v' := by
  obtain ⟨s', h1, h2, -, -, -, -, h7, -⟩ := C70_grid_round_trip sqrt p q hp v h.sized
  refine ⟨s', h1, ?_⟩
  unfold gridCallback at h1
  obtain ⟨g1, -, e⟩ := Option.map_eq_some_iff.mp h1
  obtain ⟨c, hc⟩ := h.explored
  refine ⟨?_, ?_, ⟨c, ?_⟩, h7, ?_, fun _ => by rw [h2]; exact hn⟩
  · rw [← e]; exact h.mask
  · rw [← e]; exact h.result
  · rw [← e]; exact hc
  · rw [← e]; exact h.patch

theorem applySizeUpdate_big {S : ℕ} {s : Planner K} (h : PlannerSafe S s) : 2 * S + 1 ≤ (applySizeUpdate s).grid.n ∧ (applySizeUpdate s).size_update = false ∧
    (applySizeUpdate s).cfg_grid_size = s.cfg_grid_size ∧ (applySizeUpdate s).cfg_cell_size = s.cfg_cell_size := by
  unfold applySizeUpdate
  by_cases hu : s.size_update = true
  · rw [if_pos hu]; exact ⟨h.cfg, rfl, rfl, rfl⟩
  · rw [if_neg hu]
    rcases h.big with hb | hb
    · exact absurd hb hu
    · exact ⟨hb, by simpa using hu, rfl, rfl⟩

theorem PlannerSafe.cloud {S : ℕ} {s : Planner K} (h : PlannerSafe S s) (c : List (CloudPoint K)) :
    ∃ s', run s (.cloud c) = some s' ∧ PlannerSafe S s' ∧ s'.previous.Sized ∧ 2 * S + 1 ≤ s'.previous.n := by
  obtain ⟨s', hs', hi⟩ := inv_run h.inv c
  obtain ⟨b1, b2, b3, b4⟩ := applySizeUpdate_big h
  have hprev : s'.previous = (applySizeUpdate s).grid ∧ s'.cfg_grid_size = (applySizeUpdate s).cfg_grid_size ∧ s'.cfg_cell_size = (applySizeUpdate s).cfg_cell_size := by
    unfold run processPointcloud at hs'
    dsimp only at hs'
    obtain ⟨t, ht, hc⟩ := Option.bind_eq_some_iff.mp hs'
    obtain ⟨g, -, rfl⟩ := Option.map_eq_some_iff.mp ht
    obtain ⟨g', -, rfl⟩ := Option.map_eq_some_iff.mp hc
    exact ⟨rfl, rfl, rfl⟩
  have hn : 2 * S + 1 ≤ s'.previous.n := by rw [hprev.1]; exact b1
  refine ⟨s', hs', ⟨hi, ?_, Or.inr ?_⟩, hi.sized', hn⟩
  · rw [hprev.2.1, hprev.2.2, b3, b4]; exact h.cfg
  · rw [hi.same_n]; exact hn

theorem reconfigure_big {s : Planner K} (h : PlannerInv s) (a b c d e f : K) (g i j : ℤ) (hd : 0 < d) (he : 0 < e) (hf : 0 ≤ f ∧ f ≤ 1) {S : ℕ} (hS : 2 * S + 1 ≤ ⌈d / e⌉.toNat) :
    PlannerSafe S (reconfigure s a b c d e f g i j) := by
  refine ⟨⟨h.sized, h.sized', h.gs, h.cs, hd, he, hf.1, hf.2, h.var, h.var'⟩, hS, ?_⟩
  unfold reconfigure
  dsimp only
  by_cases hc : s.grid.grid_size ≠ d ∨ s.grid.cell_size ≠ e ∨ s.n_lines_padding ≠ g
  · exact Or.inl (decide_eq_true hc)
  · push Not at hc
    refine Or.inr ?_
    rw [h.sized.2.2, hc.1, hc.2.1]
    exact hS

theorem SysSafe.step {sqrt : K → K} {S : ℕ} {s : LandSys K} (h : SysSafe sqrt S s) (ny : V3 (Option K) → V3 (Option K) → Option K) (e : LandEvent K) (he : FitsEvent S e) :
    ∃ s', landStep sqrt ny s e = some s' ∧ SysSafe sqrt S s' := by
  cases e with
  | planner e =>
    cases e with
    | pose p =>
      have i := h.planner.inv
      exact ⟨_, rfl, ⟨⟨⟨i.sized, i.sized', i.gs, i.cs, i.cfg_g, i.cfg_c, i.a0, i.a1, i.var, i.var'⟩, h.planner.cfg, h.planner.big⟩, h.wire, h.node⟩⟩
    | reconfigure a b c d f g i j k =>
      obtain ⟨⟨h1, h2, h3, h4⟩, h5⟩ := he.1 ⟨a, b, c, d, f, g, i, j, k⟩ rfl
      exact ⟨_, rfl, ⟨reconfigure_big h.planner.inv a b c d f g i j k h1 h2 ⟨h3, h4⟩ h5, h.wire, h.node⟩⟩
    | cloud c =>
      obtain ⟨p, hp, p1, p2, p3⟩ := h.planner.cloud c
      refine ⟨announce sqrt s (.cloud c) p, by show (run s.planner (.cloud c)).map _ = _; rw [hp]; rfl, p1, fun m hm => ?_, h.node⟩
      rcases List.mem_append.mp hm with hm | hm
      · exact h.wire m hm
      · exact ⟨p, s.seq, List.mem_singleton.mp hm, p2, p3⟩
  | deliver =>
    cases hw : s.wire with
    | nil => exact ⟨s, by unfold landStep; rw [hw], h⟩
    | cons m rest =>
      obtain ⟨p, q, rfl, p1, p2⟩ := h.wire m (by rw [hw]; simp)
      obtain ⟨v, hv, hs⟩ := h.node.grid ny sqrt p q p1 p2
      refine ⟨{ s with wire := rest, node := v }, ?_, h.planner, fun m hm => h.wire m (by rw [hw]; exact List.mem_cons_of_mem _ hm), hs⟩
      unfold landStep
      rw [hw]
      dsimp only
      rw [hv]
      rfl
  | lose => exact ⟨_, rfl, h.planner, fun m hm => h.wire m (List.mem_of_mem_tail hm), h.node⟩
  | node e =>
    have hcb : (∀ m, e ≠ .grid m) → e ≠ .iterate → ∃ s', (slpStep ny s.node e).map (fun v => { s with node := v }) = some s' ∧ SysSafe sqrt S s' := by
      intro h1 h2
      obtain ⟨v, hv, hs⟩ := h.node.callback ny e h1 h2 (fun a b c d f p e' => he.2 ⟨a, b, c, d, f, p⟩ (by rw [e']; rfl))
      exact ⟨{ s with node := v }, by rw [hv]; rfl, h.planner, h.wire, hs⟩
    cases e with
    | grid m => exact ⟨s, rfl, h⟩
    | iterate =>
      by_cases hg : s.node.grid_received = true
      · obtain ⟨v, hv, hs⟩ := h.node.iterate ny hg
        refine ⟨{ s with node := v }, ?_, h.planner, h.wire, hs⟩
        show (if s.node.grid_received = true then _ else _) = _
        rw [if_pos hg, hv]
        rfl
      · exact ⟨s, if_neg hg, h⟩
    | position p y => exact hcb (fun m h => by cases h) (fun h => by cases h)
    | trajectory m => exact hcb (fun m h => by cases h) (fun h => by cases h)
    | state a b => exact hcb (fun m h => by cases h) (fun h => by cases h)
    | reconfigure a b c d f p => exact hcb (fun m h => by cases h) (fun h => by cases h)

theorem SysSafe.run {sqrt : K → K} {S : ℕ} (ny : V3 (Option K) → V3 (Option K) → Option K) (es : List (LandEvent K)) : ∀ s : LandSys K, SysSafe sqrt S s → (∀ e ∈ es, FitsEvent S e) →
    ∃ s', loopM (landStep sqrt ny) s es = some s' ∧ SysSafe sqrt S s' := by
  induction es with
  | nil => intro s h _; exact ⟨s, rfl, h⟩
  | cons e es ih =>
    intro s h he
    obtain ⟨s1, h1, k1⟩ := h.step ny e (he e List.mem_cons_self)
    obtain ⟨s2, h2, k2⟩ := ih s1 k1 (fun x hx => he x (List.mem_cons_of_mem _ hx))
    exact ⟨s2, by show (landStep sqrt ny s e).bind _ = _; rw [h1]; exact h2, k2⟩

theorem start_safe (sqrt : K → K) (S : ℕ) (c : PlannerConfig K) (d : GeneratorConfig K) (hc : c.Ok) (hS : 2 * S + 1 ≤ c.rows) (hd : 1 ≤ d.patch ∧ d.patch ≤ S)
    (ny : V3 (Option K) → V3 (Option K) → Option K) : ∃ s, loopM (landStep sqrt ny) landInit [c.event, d.event] = some s ∧ SysSafe sqrt S s := by
  refine ⟨_, rfl, reconfigure_big inv_init _ _ _ _ _ _ _ _ _ hc.1 hc.2.1 hc.2.2 hS, (fun m hm => by cases hm), ?_⟩
  exact ⟨⟨6, rfl, rfl⟩, fun _ _ => Or.inl rfl, ⟨0, Or.inl ⟨rfl, rfl, rfl⟩⟩, resize_sized _ _ _ (by norm_num) (by norm_num), hd, fun h => by cases h⟩

/-! ## C120 -/

/-- **C120.** Both landing nodes start with a configuration (the reconfigure servers hand over the configured values when the nodes are constructed). In every history in which every configured patch of the
generator has at least one ring of cells and fits into every configured grid of the planner, whatever poses, clouds, trajectories and modes arrive, and whatever grid messages are lost, nothing is ever
accessed out of range and no matrices of different sizes are combined. -/
theorem C120_never_undefined_partial (sqrt : K → K) (ny : V3 (Option K) → V3 (Option K) → Option K) (S : ℕ) (c : PlannerConfig K) (d : GeneratorConfig K) (es : List (LandEvent K))
    (h : ∀ e ∈ c.event :: d.event :: es, FitsEvent S e) : ∃ s, loopM (landStep sqrt ny) landInit (c.event :: d.event :: es) = some s := by
  obtain ⟨h1, h2⟩ := (h c.event List.mem_cons_self).1 c rfl
  have h3 := (h d.event (List.mem_cons_of_mem _ List.mem_cons_self)).2 d rfl
  obtain ⟨s0, e0, k0⟩ := start_safe sqrt S c d h1 h2 h3 ny
  obtain ⟨s, e1, -⟩ := SysSafe.run ny es s0 k0 (fun e he => h e (List.mem_cons_of_mem _ (List.mem_cons_of_mem _ he)))
  refine ⟨s, ?_⟩
  rw [show c.event :: d.event :: es = [c.event, d.event] ++ es from rfl, loopM_append, e0]
  exact e1

/-- In its first state the generator reads the centre of the grid. -/
theorem calc_undefined (ny : V3 (Option K) → V3 (Option K) → Option K) (w : Slp K) (h1 : w.trigger_reset = false) (h2 : w.state = .GOTO) (h3 : ¬ (1 ≤ w.smoothing_land_cell ∧ 2 * w.smoothing_land_cell + 1 ≤ w.grid.n)) :
    calculateWaypoint ny w = none := by
  have e : (updateSlpState w).trigger_reset = w.trigger_reset ∧ (updateSlpState w).state = w.state ∧ (updateSlpState w).grid = w.grid ∧ (updateSlpState w).smoothing_land_cell = w.smoothing_land_cell := by
    unfold updateSlpState updateNotLanding updateHysteresisSize updateMask
    split_ifs <;> exact ⟨rfl, rfl, rfl, rfl⟩
  have hp : heightPercentile (goToPublish ny (updateSlpState w)) 80 = none := by
    have g : (goToPublish ny (updateSlpState w)).grid = w.grid ∧ (goToPublish ny (updateSlpState w)).smoothing_land_cell = w.smoothing_land_cell := by
      rw [← e.2.2.1, ← e.2.2.2]
      unfold goToPublish publish
      split_ifs <;> exact ⟨rfl, rfl⟩
    cases hh : heightPercentile (goToPublish ny (updateSlpState w)) 80 with
    | none => rfl
    | some v =>
      exfalso
      have := (C51_defined_iff _).mp ⟨v, hh⟩
      rw [g.1, g.2] at this
      exact h3 ⟨this.2, this.1⟩
  unfold calculateWaypoint runCurrentState
  rw [if_neg (by rw [e.1, h1]; simp), e.2.1, h2]
  dsimp only
  unfold runGoTo
  rw [hp]
  rfl

theorem rows_resize (g : Grid K) (a b : K) : (g.resize a b).n = ⌈a / b⌉.toNat := rfl

/-- The size of the grid of the first cloud. -/
theorem first_rows (c : PlannerConfig K) (hc : c.Ok) : ∃ p, run (reconfigure plannerInit c.n_points c.std_dev c.mean_diff c.grid_size c.cell_size c.alpha c.smoothing c.max_diff c.min_land) (.cloud []) = some p ∧
    p.previous.Sized ∧ p.previous.n = c.rows := by
  have h0 := reconfigure_big (S := 0) (inv_init (K := K)) c.n_points c.std_dev c.mean_diff c.grid_size c.cell_size c.alpha c.smoothing c.max_diff c.min_land hc.1 hc.2.1 hc.2.2
    (by have := Int.ceil_pos.mpr (div_pos hc.1 hc.2.1); omega)
  obtain ⟨p, hp, hi⟩ := inv_run h0.inv []
  refine ⟨p, hp, hi.sized', ?_⟩
  unfold run processPointcloud at hp
  dsimp only at hp
  obtain ⟨t, ht, hc'⟩ := Option.bind_eq_some_iff.mp hp
  obtain ⟨g, -, rfl⟩ := Option.map_eq_some_iff.mp ht
  obtain ⟨g', -, rfl⟩ := Option.map_eq_some_iff.mp hc'
  show (applySizeUpdate _).grid.n = _
  unfold applySizeUpdate
  split_ifs with hu
  · rfl
  · rcases h0.inv.sized with ⟨-, -, hs⟩
    rw [hs]
    have hu' : ¬ (plannerInit.grid.grid_size ≠ c.grid_size ∨ plannerInit.grid.cell_size ≠ c.cell_size ∨ plannerInit.n_lines_padding ≠ c.smoothing) := fun hx => hu (decide_eq_true hx)
    push Not at hu'
    show ⌈plannerInit.grid.grid_size / plannerInit.grid.cell_size⌉.toNat = ⌈c.grid_size / c.cell_size⌉.toNat
    rw [hu'.1, hu'.2.1]

/-- **C120.** The condition of `C120_never_undefined_partial` is exact, and the ranges of the configurations do not imply it: with a patch that is empty or does not fit into the grid, an empty cloud and one
iteration leave the grid. -/
theorem C120_too_small_violated (sqrt : K → K) (ny : V3 (Option K) → V3 (Option K) → Option K) (c : PlannerConfig K) (d : GeneratorConfig K) (hc : c.Ok) (h : ¬ (1 ≤ d.patch ∧ 2 * d.patch + 1 ≤ c.rows)) :
    loopM (landStep sqrt ny) landInit [c.event, d.event, .planner (.cloud []), .deliver, .node .iterate] = none := by
  obtain ⟨p, hp, p1, p2⟩ := first_rows c hc
  obtain ⟨v, hv, v1, -, -, -, v5, -, -⟩ := C70_grid_round_trip sqrt p 0 p1 (slpReconfigure slpInit d.beta d.thr d.loiter_height d.vertical_range_error d.spiral_width d.patch)
    (resize_sized _ _ _ (by norm_num) (by norm_num))
  have hg : v.gen.trigger_reset = false ∧ v.gen.state = .GOTO ∧ v.gen.smoothing_land_cell = d.patch := by
    unfold gridCallback at hv
    obtain ⟨g, -, e⟩ := Option.map_eq_some_iff.mp hv
    rw [← e]
    exact ⟨rfl, rfl, rfl⟩
  have hw := calc_undefined ny v.gen hg.1 hg.2.1 (by rw [hg.2.2, v1, p2]; exact h)
  show (landStep sqrt ny (landInit) c.event).bind (fun s => (landStep sqrt ny s d.event).bind fun s => (landStep sqrt ny s (.planner (.cloud []))).bind fun s =>
    (landStep sqrt ny s .deliver).bind fun s => (landStep sqrt ny s (.node .iterate)).bind fun s => some s) = none
  show ((run (reconfigure plannerInit c.n_points c.std_dev c.mean_diff c.grid_size c.cell_size c.alpha c.smoothing c.max_diff c.min_land) (.cloud [])).map _).bind _ = none
  rw [hp]
  show ((gridCallback (slpReconfigure slpInit d.beta d.thr d.loiter_height d.vertical_range_error d.spiral_width d.patch) (publishSerialGrid sqrt p 0)).map _).bind _ = none
  rw [hv]
  show ((if v.grid_received = true then ((calculateWaypoint ny v.gen).map _).map _ else _ : Option (LandSys K))).bind _ = none
  rw [if_pos v5, hw]
  rfl

/-- **C120.** Both theorems at one size: the two configurations are safe whatever happens afterwards (without another configuration) exactly if the patch is not empty and fits into the grid. -/
theorem C120_safe_iff (sqrt : K → K) (ny : V3 (Option K) → V3 (Option K) → Option K) (c : PlannerConfig K) (d : GeneratorConfig K) (hc : c.Ok) :
    (∀ es : List (LandEvent K), (∀ e ∈ es, (∀ c : PlannerConfig K, e ≠ c.event) ∧ ∀ d : GeneratorConfig K, e ≠ d.event) → ∃ s, loopM (landStep sqrt ny) landInit (c.event :: d.event :: es) = some s) ↔
      1 ≤ d.patch ∧ 2 * d.patch + 1 ≤ c.rows := by
  constructor
  · intro h
    by_contra hn
    obtain ⟨s, hs⟩ := h [.planner (.cloud []), .deliver, .node .iterate] (by
      intro e he
      simp only [List.mem_cons, List.not_mem_nil, or_false] at he
      rcases he with rfl | rfl | rfl <;> exact ⟨fun c h => by (cases h), fun c h => by cases h⟩)
    rw [C120_too_small_violated sqrt ny c d hc hn] at hs
    cases hs
  · rintro ⟨h1, h2⟩ es he
    refine C120_never_undefined_partial sqrt ny d.patch c d es (fun e hm => ?_)
    rcases List.mem_cons.mp hm with rfl | hm
    · refine ⟨fun c' e => ?_, fun d' e => by cases e⟩
      have : c = c' := by cases c; cases c'; injection e with e; injection e; simp_all
      rw [← this]; exact ⟨hc, h2⟩
    · rcases List.mem_cons.mp hm with rfl | hm
      · refine ⟨fun c' e => by (cases e), fun d' e => ?_⟩
        have : d = d' := by cases d; cases d'; injection e with e; injection e; simp_all
        rw [← this]; exact ⟨h1, le_refl _⟩
      · exact ⟨fun c' h => absurd h ((he e hm).1 c'), fun d' h => absurd h ((he e hm).2 d')⟩

/-! ## Examples -/

/-- The configuration files as delivered (SafeLandingPlannerNode.cfg, WaypointGeneratorNode.cfg). -/
def deliveredPlanner : PlannerConfig ℚ := ⟨100, 1 / 5, 1 / 10, 10, 1 / 4, 9 / 10, 5, 70, 70⟩
def deliveredGenerator : GeneratorConfig ℚ := ⟨9 / 10, 4 / 10, 8, 1 / 2, 2, 6⟩

/-- Larger cells, and no smoothing of the landing cells: both in the ranges of the files. -/
def coarsePlanner : PlannerConfig ℚ := { deliveredPlanner with cell_size := 1 }
def unsmoothedGenerator : GeneratorConfig ℚ := { deliveredGenerator with patch := 0 }

/-- The delivered configuration is safe. -/
example (sqrt : ℚ → ℚ) (ny : V3 (Option ℚ) → V3 (Option ℚ) → Option ℚ) (es : List (LandEvent ℚ)) (he : ∀ e ∈ es, (∀ c : PlannerConfig ℚ, e ≠ c.event) ∧ ∀ d : GeneratorConfig ℚ, e ≠ d.event) :
    ∃ s, loopM (landStep sqrt ny) landInit (deliveredPlanner.event :: deliveredGenerator.event :: es) = some s :=
  (C120_safe_iff sqrt ny deliveredPlanner deliveredGenerator (by unfold PlannerConfig.Ok deliveredPlanner; norm_num)).mpr (by decide +kernel) es he

/-- A cell size of 1 m instead of 0.25 m is not. -/
theorem C120_coarse_witness (sqrt : ℚ → ℚ) (ny : V3 (Option ℚ) → V3 (Option ℚ) → Option ℚ) :
    loopM (landStep sqrt ny) landInit [coarsePlanner.event, deliveredGenerator.event, .planner (.cloud []), .deliver, .node .iterate] = none :=
  C120_too_small_violated sqrt ny _ _ (by unfold PlannerConfig.Ok coarsePlanner deliveredPlanner; norm_num) (by decide +kernel)

/-- Nor is a `smoothing_land_cell` of 0. -/
theorem C120_unsmoothed_witness (sqrt : ℚ → ℚ) (ny : V3 (Option ℚ) → V3 (Option ℚ) → Option ℚ) :
    loopM (landStep sqrt ny) landInit [deliveredPlanner.event, unsmoothedGenerator.event, .planner (.cloud []), .deliver, .node .iterate] = none :=
  C120_too_small_violated sqrt ny _ _ (by unfold PlannerConfig.Ok deliveredPlanner; norm_num) (by decide +kernel)

/-- A history with two configurations, a lost message and an iteration meets the hypothesis of `C120_never_undefined_partial`. -/
example (e : LandEvent ℚ) (he : e ∈ [deliveredPlanner.event, deliveredGenerator.event, .planner (.cloud []), .lose, .planner (.cloud []), .deliver, .node .iterate,
    ({ deliveredPlanner with cell_size := 1 / 2 } : PlannerConfig ℚ).event]) : FitsEvent 6 e := by
  simp only [List.mem_cons, List.not_mem_nil, or_false] at he
  rcases he with rfl | rfl | rfl | rfl | rfl | rfl | rfl | rfl
  case inl =>
    refine ⟨fun c' e => ?_, fun d' e => by cases e⟩
    have : deliveredPlanner = c' := by cases c'; injection e with e; injection e; simp_all [deliveredPlanner]
    rw [← this]; exact ⟨by unfold PlannerConfig.Ok deliveredPlanner; norm_num, by decide +kernel⟩
  case inr.inl =>
    refine ⟨fun c' e => by (cases e), fun d' e => ?_⟩
    have : deliveredGenerator = d' := by cases d'; injection e with e; injection e; simp_all [deliveredGenerator]
    rw [← this]; exact ⟨by decide +kernel, by decide +kernel⟩
  case inr.inr.inr.inr.inr.inr.inr =>
    refine ⟨fun c' e => ?_, fun d' e => by cases e⟩
    have : ({ deliveredPlanner with cell_size := 1 / 2 } : PlannerConfig ℚ) = c' := by cases c'; injection e with e; injection e; simp_all [deliveredPlanner]
    rw [← this]; exact ⟨by unfold PlannerConfig.Ok deliveredPlanner; norm_num, by decide +kernel⟩
  all_goals exact ⟨fun c h => by (cases h), fun c h => by cases h⟩

end Landing
end Avoidance
