import Verif.LandingLandProps

/-!
# Temporal filtering of the landing grid (C46) and the whole planner run
-/

namespace Avoidance
namespace Landing

set_option linter.unusedSectionVars false

variable {K : Type*} [Field K] [LinearOrder K] [IsStrictOrderedRing K] [FloorRing K]

/-! ## Specification -/

/-- Everything that happens to the planner when it works on clouds. -/
inductive PlannerEvent (K : Type*) where
  | pose (p : V3 K)
  | reconfigure (n_points std_dev mean_diff grid_size cell_size alpha : K) (smoothing max_diff min_land : ℤ)
  | cloud (c : List (CloudPoint K))

/-- The effect of an event (`setPose` is safe_landing_planner.cpp:138). -/
def plannerStep (s : Planner K) : PlannerEvent K → Option (Planner K)
  | .pose p => some { s with pos := p }
  | .reconfigure a b c d e f g h i => some (reconfigure s a b c d e f g h i)
  | .cloud c => run s (.cloud c)

/-- A configuration change with positive sizes, and `α` between 0 and 1. -/
def PlannerEvent.Sane : PlannerEvent K → Prop
  | .reconfigure _ _ _ d e f _ _ _ => 0 < d ∧ 0 < e ∧ 0 ≤ f ∧ f ≤ 1
  | _ => True

/-! ## C46 -/

/-- What holds between any two events. -/
structure PlannerInv (s : Planner K) : Prop where
  sized : s.grid.Sized
  sized' : s.previous.Sized
  gs : s.grid.grid_size = s.previous.grid_size
  cs : s.grid.cell_size = s.previous.cell_size
  cfg_g : 0 < s.cfg_grid_size
  cfg_c : 0 < s.cfg_cell_size
  a0 : 0 ≤ s.alpha
  a1 : s.alpha ≤ 1
  var : ∀ i j, 0 ≤ s.grid.variance i j
  var' : ∀ i j, 0 ≤ s.previous.variance i j

theorem PlannerInv.same_n {s : Planner K} (h : PlannerInv s) : s.grid.n = s.previous.n := by
  rw [h.sized.2.2, h.sized'.2.2, h.gs, h.cs]

theorem resize_sized (g : Grid K) (a b : K) (ha : 0 < a) (hb : 0 < b) : (g.resize a b).Sized := ⟨hb, ha, rfl⟩

theorem inv_applySizeUpdate {s : Planner K} (h : PlannerInv s) : PlannerInv (applySizeUpdate s) := by
  unfold applySizeUpdate
  by_cases hu : s.size_update = true
  · rw [if_pos hu]
    exact ⟨resize_sized _ _ _ h.cfg_g h.cfg_c, resize_sized _ _ _ h.cfg_g h.cfg_c, rfl, rfl, h.cfg_g, h.cfg_c, h.a0, h.a1,
      fun _ _ => le_refl _, fun _ _ => le_refl _⟩
  · rw [if_neg hu]; exact h

/-- **C46, one run.** From any state with grids of equal size, a run on any cloud succeeds, and its grid has,
in each cell, the point count of the new cloud and, as mean and variance, `α · old + (1 - α) · new`, where
`new` are the statistics of the points in the cell and `old` the filtered values of the last run. The grid of
the last run becomes the previous one. -/
theorem C46_run (s : Planner K) (h : PlannerInv s) (hu : s.size_update = false) (cloud : List (CloudPoint K)) :
    ∃ s', run s (.cloud cloud) = some s' ∧ s'.previous = s.grid ∧ s'.grid.n = s.grid.n ∧
      ∀ i j, s'.grid.counter i j = ((s.previous.setFilterLimits s.pos.x s.pos.y).heights cloud i j).length ∧
        s'.grid.mean i j = s.alpha * s.grid.mean i j +
          (1 - s.alpha) * avg ((s.previous.setFilterLimits s.pos.x s.pos.y).heights cloud i j) ∧
        s'.grid.variance i j = s.alpha * s.grid.variance i j +
          (1 - s.alpha) * popVar ((s.previous.setFilterLimits s.pos.x s.pos.y).heights cloud i j) := by
  obtain ⟨g', e, hn, hc, st⟩ := C44_cell_statistics s.previous h.sized' s.pos.x s.pos.y cloud
  have ea : applySizeUpdate s = s := by
    unfold applySizeUpdate
    rw [hu, if_neg (by simp)]
  have hnn : g'.n = s.grid.n := by rw [hn, h.same_n]
  unfold run
  dsimp only
  rw [ea]
  unfold processPointcloud
  dsimp only
  rw [e]
  simp only [Option.map_some, Option.bind_some]
  unfold Grid.combine
  rw [if_pos hnn]
  refine ⟨_, rfl, rfl, hnn, fun i j => ?_⟩
  obtain ⟨a, b, c⟩ := st i j
  refine ⟨a, ?_, ?_⟩
  · unfold isLandingPossible; dsimp only; rw [b]
  · unfold isLandingPossible; dsimp only; rw [c]

/-- **C46, range.** With `α` in `[0, 1]` the filtered mean and variance lie between the old and the new value. -/
theorem C46_between (g prev g' : Grid K) (alpha : K) (h0 : 0 ≤ alpha) (h1 : alpha ≤ 1)
    (h : g.combine prev alpha = some g') (i j : ℤ) :
    (min (prev.mean i j) (g.mean i j) ≤ g'.mean i j ∧ g'.mean i j ≤ max (prev.mean i j) (g.mean i j)) ∧
    (min (prev.variance i j) (g.variance i j) ≤ g'.variance i j ∧
      g'.variance i j ≤ max (prev.variance i j) (g.variance i j)) ∧
    g'.counter = g.counter ∧ g'.land = g.land := by
  have conv : ∀ a b : K, min a b ≤ alpha * a + (1 - alpha) * b ∧ alpha * a + (1 - alpha) * b ≤ max a b := by
    intro a b
    constructor
    · have e1 := mul_le_mul_of_nonneg_left (min_le_left a b) h0
      have e2 := mul_le_mul_of_nonneg_left (min_le_right a b) (sub_nonneg.mpr h1)
      linarith
    · have e1 := mul_le_mul_of_nonneg_left (le_max_left a b) h0
      have e2 := mul_le_mul_of_nonneg_left (le_max_right a b) (sub_nonneg.mpr h1)
      linarith
  unfold Grid.combine at h
  by_cases hn : g.n = prev.n
  · rw [if_pos hn] at h
    cases h
    exact ⟨conv _ _, conv _ _, rfl, rfl⟩
  · rw [if_neg hn] at h; cases h

/-- **C46, sizes.** Grids of different size are never combined. -/
theorem C46_combine_iff (g prev : Grid K) (alpha : K) : (∃ g', g.combine prev alpha = some g') ↔ g.n = prev.n := by
  unfold Grid.combine
  by_cases hn : g.n = prev.n
  · rw [if_pos hn]; exact ⟨fun _ => hn, fun _ => ⟨_, rfl⟩⟩
  · rw [if_neg hn]; exact ⟨fun ⟨_, h⟩ => (by cases h), fun h => absurd h hn⟩

theorem inv_run {s : Planner K} (h : PlannerInv s) (cloud : List (CloudPoint K)) :
    ∃ s', run s (.cloud cloud) = some s' ∧ PlannerInv s' := by
  have h2 := inv_applySizeUpdate h
  generalize hs2 : applySizeUpdate s = s2 at h2
  obtain ⟨g', e, f, st⟩ := binCloud_stats cloud (s2.previous.setFilterLimits s2.pos.x s2.pos.y).reset h2.sized'
    (centred_setFilterLimits s2.previous s2.pos.x s2.pos.y)
  have hnn : g'.n = s2.grid.n := by rw [f.2.2.1, h2.same_n]; rfl
  unfold run
  dsimp only
  rw [hs2]
  unfold processPointcloud
  dsimp only
  rw [e]
  simp only [Option.map_some, Option.bind_some]
  unfold Grid.combine
  rw [if_pos hnn]
  refine ⟨_, rfl, ?_⟩
  have fs : g'.Sized := sized_frame f h2.sized'
  refine ⟨fs, h2.sized, ?_, ?_, h2.cfg_g, h2.cfg_c, h2.a0, h2.a1, ?_, h2.var⟩
  · exact f.1.trans h2.gs.symm
  · exact f.2.1.trans h2.cs.symm
  · intro i j
    have := st i j [] ⟨by simp [Grid.reset], by simp [Grid.reset, avg], by simp [Grid.reset, popVar]⟩
    unfold isLandingPossible
    dsimp only
    rw [this.2.2]
    exact add_nonneg (mul_nonneg h2.a0 (h2.var i j)) (mul_nonneg (sub_nonneg.mpr h2.a1) (popVar_nonneg _))

theorem inv_step {s : Planner K} (h : PlannerInv s) (e : PlannerEvent K) (he : e.Sane) :
    ∃ s', plannerStep s e = some s' ∧ PlannerInv s' := by
  cases e with
  | pose p => exact ⟨_, rfl, ⟨h.sized, h.sized', h.gs, h.cs, h.cfg_g, h.cfg_c, h.a0, h.a1, h.var, h.var'⟩⟩
  | reconfigure a b c d e f g i j =>
    exact ⟨_, rfl, ⟨h.sized, h.sized', h.gs, h.cs, he.1, he.2.1, he.2.2.1, he.2.2.2, h.var, h.var'⟩⟩
  | cloud c => exact inv_run h c

theorem inv_init : PlannerInv (plannerInit : Planner K) := by
  have hs : (Grid.new (10 : K) 1).Sized := resize_sized _ _ _ (by norm_num) (by norm_num)
  exact ⟨hs, hs, rfl, rfl, by unfold plannerInit; norm_num, by unfold plannerInit; norm_num, by unfold plannerInit; norm_num,
    by unfold plannerInit; norm_num, fun _ _ => le_refl _, fun _ _ => le_refl _⟩

/-- **C43/C46, histories.** In every history of poses, configuration changes (with positive sizes) and clouds,
from the start, no access is out of range and no two grids of different size are combined: the planner always
has a result, its two grids have the same number of rows, `⌈grid size / cell size⌉`, and all variances are
non-negative. -/
theorem C46_histories (es : List (PlannerEvent K)) (hs : ∀ e ∈ es, e.Sane) :
    ∃ s, loopM plannerStep (plannerInit : Planner K) es = some s ∧ s.grid.n = s.previous.n ∧
      s.grid.n = ⌈s.grid.grid_size / s.grid.cell_size⌉.toNat ∧ ∀ i j, 0 ≤ s.grid.variance i j := by
  have main : ∀ (es : List (PlannerEvent K)) (s0 : Planner K), PlannerInv s0 → (∀ e ∈ es, e.Sane) →
      ∃ s, loopM plannerStep s0 es = some s ∧ PlannerInv s := by
    intro es
    induction es with
    | nil => intro s0 h _; exact ⟨s0, rfl, h⟩
    | cons e es ih =>
      intro s0 h hs
      obtain ⟨s1, e1, h1⟩ := inv_step h e (hs e List.mem_cons_self)
      obtain ⟨s2, e2, h2⟩ := ih s1 h1 (fun e' he' => hs e' (List.mem_cons_of_mem _ he'))
      refine ⟨s2, ?_, h2⟩
      unfold loopM
      rw [e1]
      exact e2
  obtain ⟨s, e, h⟩ := main es plannerInit inv_init hs
  exact ⟨s, e, h.same_n, h.sized.2.2, h.var⟩

/-- **C46 (finding).** With recorded grids (`play_rosbag`) this fails: a recorded grid of another size than the
current one is combined with a previous grid of the old size. -/
theorem C46_rosbag_resize_witness :
    (run (plannerInit : Planner ℚ) (.raw ⟨7, 2, 1, 2, 2, [0, 0, 0, 0], [0, 0, 0, 0], [9, 9, 9, 9], [], (1, 1)⟩)).isNone = true ∧
    (run (plannerInit : Planner ℚ) (.raw ⟨7, 10, 1, 2, 2, [0, 0, 0, 0], [0, 0, 0, 0], [9, 9, 9, 9], [], (1, 1)⟩)).isSome = true := by
  decide +kernel

theorem heights_congr (g g' : Grid K) (hs : g.grid_size = g'.grid_size) (hc : g.cell_size = g'.cell_size) (x y : K)
    (cloud : List (CloudPoint K)) (i j : ℤ) :
    (g.setFilterLimits x y).heights cloud i j = (g'.setFilterLimits x y).heights cloud i j := by
  obtain ⟨_, _, _, _, _, _, _, _, _, _, _⟩ := g
  obtain ⟨_, _, _, _, _, _, _, _, _, _, _⟩ := g'
  dsimp only at hs hc
  subst hs hc
  rfl

theorem run_frame {s s' : Planner K} (h : PlannerInv s) (hu : s.size_update = false) (cloud : List (CloudPoint K))
    (hr : run s (.cloud cloud) = some s') :
    s'.size_update = false ∧ s'.pos = s.pos ∧ s'.alpha = s.alpha ∧ s'.grid.grid_size = s.grid.grid_size ∧
    s'.grid.cell_size = s.grid.cell_size := by
  obtain ⟨g', e, f, _⟩ := binCloud_stats cloud (s.previous.setFilterLimits s.pos.x s.pos.y).reset h.sized'
    (centred_setFilterLimits s.previous s.pos.x s.pos.y)
  have hnn : g'.n = s.grid.n := by rw [f.2.2.1, h.same_n]; rfl
  have ea : applySizeUpdate s = s := by
    unfold applySizeUpdate
    rw [hu, if_neg (by simp)]
  unfold run at hr
  dsimp only at hr
  rw [ea] at hr
  unfold processPointcloud at hr
  dsimp only at hr
  rw [e] at hr
  simp only [Option.map_some, Option.bind_some] at hr
  unfold Grid.combine at hr
  rw [if_pos hnn] at hr
  cases hr
  exact ⟨hu, rfl, rfl, f.1.trans h.gs.symm, f.2.1.trans h.cs.symm⟩

/-- **C46, response.** While the vehicle hovers and the statistics of a cell stay the same (mean `m`, variance `v`),
`k` runs move its filtered values to `αᵏ · initial + (1 - αᵏ) · measured`. As a fresh or resized grid starts from 0,
the first `k` runs report the variance (and the mean) too small by the factor `1 - αᵏ`. -/
theorem C46_response (i j : ℤ) (m v : K) (clouds : List (List (CloudPoint K))) (s : Planner K) (h : PlannerInv s)
    (hu : s.size_update = false)
    (hc : ∀ c ∈ clouds, avg ((s.grid.setFilterLimits s.pos.x s.pos.y).heights c i j) = m ∧
      popVar ((s.grid.setFilterLimits s.pos.x s.pos.y).heights c i j) = v) :
    ∃ s', loopM (fun s c => run s (.cloud c)) s clouds = some s' ∧
      s'.grid.mean i j = s.alpha ^ clouds.length * s.grid.mean i j + (1 - s.alpha ^ clouds.length) * m ∧
      s'.grid.variance i j = s.alpha ^ clouds.length * s.grid.variance i j + (1 - s.alpha ^ clouds.length) * v := by
  induction clouds generalizing s with
  | nil => exact ⟨s, rfl, by simp, by simp⟩
  | cons c cs ih =>
    obtain ⟨s1, e1, _, _, st⟩ := C46_run s h hu c
    obtain ⟨s1', e1', h1⟩ := inv_run h c
    rw [e1] at e1'
    cases e1'
    obtain ⟨f1, f2, f3, f4, f5⟩ := run_frame h hu c e1
    have hcong : ∀ c', (s1.grid.setFilterLimits s1.pos.x s1.pos.y).heights c' i j =
        (s.grid.setFilterLimits s.pos.x s.pos.y).heights c' i j := by
      intro c'
      rw [f2]
      exact heights_congr _ _ f4 f5 _ _ _ _ _
    obtain ⟨s2, e2, hm, hv⟩ := ih s1 h1 f1 (fun c' hc' => by
      rw [hcong]; exact hc c' (List.mem_cons_of_mem _ hc'))
    refine ⟨s2, ?_, ?_, ?_⟩
    · unfold loopM
      rw [e1]
      exact e2
    · have hc0 := hc c List.mem_cons_self
      rw [heights_congr s.grid s.previous h.gs h.cs] at hc0
      rw [hm, f3, (st i j).2.1, hc0.1, List.length_cons]
      ring
    · have hc0 := hc c List.mem_cons_self
      rw [heights_congr s.grid s.previous h.gs h.cs] at hc0
      rw [hv, f3, (st i j).2.2, hc0.2, List.length_cons]
      ring

/-- The cloud used in the next theorem: one cell, heights alternating between 0 and 1 (standard deviation 0.5). -/
def roughCloud : List (CloudPoint ℚ) :=
  [⟨some (1/2), some (1/2), some 0⟩, ⟨some (1/2), some (1/2), some 1⟩]

/-- **C46 (finding).** Hence rough ground is reported landable at start-up: with `α = 0.9`, one run on a cloud
whose heights in a cell have standard deviation 0.5 reports that cell landable at a threshold of 0.2. -/
theorem C46_startup_unsafe_witness :
    ((run (reconfigure plannerInit 1 (1/5) (1/10) 10 1 (9/10) 0 70 0) (.cloud roughCloud)).map fun s =>
      (s.grid.counter 5 5, s.grid.land 5 5)) = some (2, 1) ∧
    ((binCloud ((Grid.new (10 : ℚ) 1).setFilterLimits 0 0).reset roughCloud).map fun g => g.variance 5 5) = some ((1/2) ^ 2) ∧
    sqrtGt ((1/2 : ℚ) ^ 2) (1/5) := by
  decide +kernel

example : ((loopM plannerStep (plannerInit : Planner ℚ)
    [.reconfigure 1 (1/5) (1/10) 4 (1/2) (9/10) 1 70 0, .cloud roughCloud, .pose ⟨1, 1, 1⟩, .cloud roughCloud]).map
      fun s => (s.grid.n, s.grid.counter 3 3)) = some (8, 2) := by decide +kernel

/-- **C46, message.** What is published after a run is the grid of the run before (with the landable cells decided
then), together with the vehicle index of this run. -/
theorem C46_published_is_previous (sqrt : K → K) (s : Planner K) (h : PlannerInv s) (hu : s.size_update = false)
    (cloud : List (CloudPoint K)) (s' : Planner K) (hr : run s (.cloud cloud) = some s') (seq : ℤ) :
    publishSerialGrid sqrt s' seq =
      { publishSerialGrid sqrt { s with previous := s.grid } seq with
        pos_index := (⌊s.grid.grid_size / 2 / s.grid.cell_size⌋, ⌊s.grid.grid_size / 2 / s.grid.cell_size⌋) } := by
  obtain ⟨g', e, f, _⟩ := binCloud_stats cloud (s.previous.setFilterLimits s.pos.x s.pos.y).reset h.sized'
    (centred_setFilterLimits s.previous s.pos.x s.pos.y)
  have hnn : g'.n = s.grid.n := by rw [f.2.2.1, h.same_n]; rfl
  have ea : applySizeUpdate s = s := by
    unfold applySizeUpdate
    rw [hu, if_neg (by simp)]
  unfold run at hr
  dsimp only at hr
  rw [ea] at hr
  unfold processPointcloud at hr
  dsimp only at hr
  rw [e] at hr
  simp only [Option.map_some, Option.bind_some] at hr
  unfold Grid.combine at hr
  rw [if_pos hnn] at hr
  cases hr
  have hpi := (C43_position_index s.previous h.sized' s.pos.x s.pos.y).1
  unfold publishSerialGrid isLandingPossible
  dsimp only
  congr 1
  rw [h.gs, h.cs, ← hpi]
  unfold Grid.computeGridIndexes
  dsimp only
  rw [f.2.1, f.2.2.2.1, f.2.2.2.2.1]
  rfl

/-- The message says nothing of the ground: no cell is landable, no point was counted. -/
def GridMsg.Blank (m : GridMsg K) : Prop :=
  (∀ v ∈ m.land, v = 0) ∧ (∀ v ∈ m.counter, v = 0) ∧ (∀ v ∈ m.mean, v = 0)

/-- What is published after a run, for a planner whose `grid` is swapped into `previous` by it. -/
theorem published_grid (sqrt : K → K) (s s' : Planner K) (cloud : List (CloudPoint K)) (hr : run s (.cloud cloud) = some s') (seq : ℤ) :
    let m := publishSerialGrid sqrt s' seq
    let g := (applySizeUpdate s).grid
    m.grid_size = g.grid_size ∧ m.cell_size = g.cell_size ∧ m.rows = g.n ∧ m.cols = g.n ∧
    m.land = (indices g.n g.n).map (fun ij => g.land ij.1 ij.2) ∧ m.counter = (indices g.n g.n).map (fun ij => g.counter ij.1 ij.2) ∧
    m.mean = (indices g.n g.n).map (fun ij => g.mean ij.1 ij.2) := by
  unfold run at hr
  dsimp only at hr
  unfold processPointcloud at hr
  dsimp only at hr
  rw [Option.bind_eq_some_iff] at hr
  obtain ⟨s1, h1, hr⟩ := hr
  rw [Option.map_eq_some_iff] at h1
  obtain ⟨g', -, rfl⟩ := h1
  rw [Option.map_eq_some_iff] at hr
  obtain ⟨g'', -, rfl⟩ := hr
  exact ⟨rfl, rfl, rfl, rfl, rfl, rfl, rfl⟩

theorem blank_of (m : GridMsg K) (n : ℕ) (h1 : m.land = (indices n n).map (fun _ => 0)) (h2 : m.counter = (indices n n).map (fun _ => 0))
    (h3 : m.mean = (indices n n).map (fun _ => 0)) : m.Blank := by
  refine ⟨?_, ?_, ?_⟩
  · intro v hv
    rw [h1, List.mem_map] at hv
    obtain ⟨a, -, rfl⟩ := hv
    rfl
  · intro v hv
    rw [h2, List.mem_map] at hv
    obtain ⟨a, -, rfl⟩ := hv
    rfl
  · intro v hv
    rw [h3, List.mem_map] at hv
    obtain ⟨a, -, rfl⟩ := hv
    rfl

/-- **C46, after a change of the size.** The first message after a change of the size of the grid, of its cells or of the smoothing has the new sizes and says nothing of the ground:
nothing measured for the old cells is announced for the new ones. -/
theorem C46_message_after_resize (sqrt : K → K) (s s' : Planner K) (a b c grid_size cell_size alpha : K) (smoothing max_diff min_land : ℤ)
    (hchange : s.grid.grid_size ≠ grid_size ∨ s.grid.cell_size ≠ cell_size ∨ s.n_lines_padding ≠ smoothing) (p : V3 K) (cloud : List (CloudPoint K))
    (hr : loopM plannerStep s [.reconfigure a b c grid_size cell_size alpha smoothing max_diff min_land, .pose p, .cloud cloud] = some s') (seq : ℤ) :
    let m := publishSerialGrid sqrt s' seq
    m.grid_size = grid_size ∧ m.cell_size = cell_size ∧ m.rows = ⌈grid_size / cell_size⌉.toNat ∧ m.cols = ⌈grid_size / cell_size⌉.toNat ∧ m.Blank := by
  have hr : (run { reconfigure s a b c grid_size cell_size alpha smoothing max_diff min_land with pos := p } (.cloud cloud)).bind some = some s' := hr
  rw [Option.bind_fun_some] at hr
  obtain ⟨h1, h2, h3, h4, h5, h6, h7⟩ := published_grid sqrt _ s' cloud hr seq
  have hu : applySizeUpdate { reconfigure s a b c grid_size cell_size alpha smoothing max_diff min_land with pos := p } =
      { ({ reconfigure s a b c grid_size cell_size alpha smoothing max_diff min_land with pos := p } : Planner K) with
        grid := s.grid.resize grid_size cell_size, previous := s.previous.resize grid_size cell_size, n_lines_padding := smoothing, size_update := false } := by
    unfold applySizeUpdate
    rw [if_pos (by unfold reconfigure; exact decide_eq_true hchange)]
    rfl
  rw [hu] at h1 h2 h3 h4 h5 h6 h7
  exact ⟨h1, h2, h3, h4, blank_of _ _ h5 h6 h7⟩

/-- **C46, at the start.** The first message a node publishes says nothing of the ground, whatever was configured before it. -/
theorem C46_first_message (sqrt : K → K) (es : List (PlannerEvent K)) (hes : ∀ e ∈ es, ∀ c, e ≠ .cloud c) (cloud : List (CloudPoint K)) (s' : Planner K)
    (hr : loopM plannerStep plannerInit (es ++ [.cloud cloud]) = some s') (seq : ℤ) : (publishSerialGrid sqrt s' seq).Blank := by
  have key : ∀ (es : List (PlannerEvent K)), (∀ e ∈ es, ∀ c, e ≠ .cloud c) → ∀ (s t : Planner K), loopM plannerStep s es = some t → t.grid = s.grid := by
    intro es
    induction es with
    | nil => intro _ s t h; obtain rfl := Option.some.inj h; rfl
    | cons e es ih =>
      intro hn s t h
      have h : (plannerStep s e).bind (fun x => loopM plannerStep x es) = some t := h
      rw [Option.bind_eq_some_iff] at h
      obtain ⟨y, h1, h2⟩ := h
      refine (ih (fun e he => hn e (List.mem_cons_of_mem _ he)) y t h2).trans ?_
      cases e with
      | pose p => obtain rfl := Option.some.inj h1; rfl
      | reconfigure => obtain rfl := Option.some.inj h1; rfl
      | cloud c => exact absurd rfl (hn _ List.mem_cons_self c)
  have last : ∀ (es : List (PlannerEvent K)) (s : Planner K), loopM plannerStep s (es ++ [.cloud cloud]) =
      (loopM plannerStep s es).bind (fun t => loopM plannerStep t [.cloud cloud]) := by
    intro es
    induction es with
    | nil => intro s; rfl
    | cons e es ih =>
      intro s
      show (plannerStep s e).bind (fun x => loopM plannerStep x (es ++ [.cloud cloud])) = ((plannerStep s e).bind (fun x => loopM plannerStep x es)).bind _
      rw [Option.bind_assoc]
      congr 1
      funext x
      exact ih x
  rw [last] at hr
  rw [Option.bind_eq_some_iff] at hr
  obtain ⟨t, h1, hr⟩ := hr
  have hr : (run t (.cloud cloud)).bind some = some s' := hr
  rw [Option.bind_fun_some] at hr
  obtain ⟨-, -, -, -, h5, h6, h7⟩ := published_grid sqrt _ s' cloud hr seq
  have hg := key es hes plannerInit t h1
  have hz : ∀ i j, (applySizeUpdate t).grid.land i j = 0 ∧ (applySizeUpdate t).grid.counter i j = 0 ∧ (applySizeUpdate t).grid.mean i j = 0 := by
    intro i j
    unfold applySizeUpdate
    split_ifs
    · exact ⟨rfl, rfl, rfl⟩
    · rw [hg]; exact ⟨rfl, rfl, rfl⟩
  refine blank_of _ (applySizeUpdate t).grid.n ?_ ?_ ?_
  · rw [h5]; exact List.map_congr_left (fun a _ => (hz _ _).1)
  · rw [h6]; exact List.map_congr_left (fun a _ => (hz _ _).2.1)
  · rw [h7]; exact List.map_congr_left (fun a _ => (hz _ _).2.2)

-- a node that has announced landable cells is reconfigured from 2 × 2 to 3 × 3 cells: the message after the first cloud says nothing, the next one does
example : ((loopM plannerStep (plannerInit : Planner ℚ) [.reconfigure 1 1 1 2 1 0 0 70 0, .pose ⟨1, 1, 1⟩, .cloud [⟨some (1/2), some (1/2), some 0⟩],
      .cloud [⟨some (1/2), some (1/2), some 0⟩]]).map fun s => (publishSerialGrid id s 0).land) = some [1, 0, 0, 0] ∧
    ((loopM plannerStep (plannerInit : Planner ℚ) [.reconfigure 1 1 1 2 1 0 0 70 0, .pose ⟨1, 1, 1⟩, .cloud [⟨some (1/2), some (1/2), some 0⟩],
      .cloud [⟨some (1/2), some (1/2), some 0⟩], .reconfigure 1 1 1 3 1 0 0 70 0, .pose ⟨3/2, 3/2, 1⟩, .cloud [⟨some (1/2), some (1/2), some 0⟩]]).map
        fun s => (publishSerialGrid id s 0).land) = some [0, 0, 0, 0, 0, 0, 0, 0, 0] := by decide +kernel

end Landing
end Avoidance
