import Verif.LandingFilterProps

/-!
# A configuration takes effect with the next run and stays in effect (C85)
-/

namespace Avoidance
namespace Landing

set_option linter.unusedSectionVars false

/-! ## Specification -/

/-- The nine parameters of the landing planner that can be changed while it runs. -/
structure LandCfg (K : Type*) where
  n_points : K
  std_dev : K
  mean_diff : K
  grid_size : K
  cell_size : K
  alpha : K
  smoothing : ℤ
  max_diff : ℤ
  min_land : ℤ

section
variable {K : Type*} [Field K] [LinearOrder K] [IsStrictOrderedRing K] [FloorRing K]

/-- The event that sets them. -/
def LandCfg.event (c : LandCfg K) : PlannerEvent K :=
  .reconfigure c.n_points c.std_dev c.mean_diff c.grid_size c.cell_size c.alpha c.smoothing c.max_diff c.min_land

/-- An event that is no configuration change. -/
def PlannerEvent.NoConfig : PlannerEvent K → Prop
  | .reconfigure _ _ _ _ _ _ _ _ _ => False
  | _ => True

/-! ## Proofs -/

/-- The parameters stored are those of `c`. -/
structure Holds (c : LandCfg K) (s : Planner K) : Prop where
  h1 : s.n_points_thr = c.n_points
  h2 : s.std_dev_thr = c.std_dev
  h3 : s.mean_diff_thr = c.mean_diff
  h4 : s.cfg_grid_size = c.grid_size
  h5 : s.cfg_cell_size = c.cell_size
  h6 : s.alpha = c.alpha
  h7 : s.smoothing_size = c.smoothing
  h8 : s.max_n_mean_diff_cells = c.max_diff
  h9 : s.min_n_land_cells = c.min_land

/-- The pending flag tells whether the sizes in use differ from the stored ones. -/
def Applied (s : Planner K) : Prop :=
  s.size_update = false → s.grid.grid_size = s.cfg_grid_size ∧ s.grid.cell_size = s.cfg_cell_size ∧ s.n_lines_padding = s.smoothing_size

theorem applied_init : Applied (plannerInit : Planner K) := fun _ => ⟨rfl, rfl, rfl⟩

theorem applied_reconfigure (s : Planner K) (a b c d e f : K) (g h i : ℤ) : Applied (reconfigure s a b c d e f g h i) := by
  intro hu
  unfold reconfigure at hu ⊢
  dsimp only at hu ⊢
  rw [decide_eq_false_iff_not] at hu
  push Not at hu
  exact hu

/-- What a run does to the parameters. -/
theorem run_params {s s' : Planner K} (hi : PlannerInv s) (cloud : List (CloudPoint K)) (h : run s (.cloud cloud) = some s') :
    s'.n_points_thr = s.n_points_thr ∧ s'.std_dev_thr = s.std_dev_thr ∧ s'.mean_diff_thr = s.mean_diff_thr ∧
    s'.cfg_grid_size = s.cfg_grid_size ∧ s'.cfg_cell_size = s.cfg_cell_size ∧ s'.alpha = s.alpha ∧
    s'.smoothing_size = s.smoothing_size ∧ s'.max_n_mean_diff_cells = s.max_n_mean_diff_cells ∧
    s'.min_n_land_cells = s.min_n_land_cells ∧ s'.size_update = false ∧
    s'.grid.grid_size = (applySizeUpdate s).grid.grid_size ∧ s'.grid.cell_size = (applySizeUpdate s).grid.cell_size ∧
    s'.n_lines_padding = (applySizeUpdate s).n_lines_padding ∧ s'.previous = (applySizeUpdate s).grid ∧
    (isLandingPossible s').grid.land = s'.grid.land := by
  have h2 := inv_applySizeUpdate hi
  have q : (applySizeUpdate s).n_points_thr = s.n_points_thr ∧ (applySizeUpdate s).std_dev_thr = s.std_dev_thr ∧
      (applySizeUpdate s).mean_diff_thr = s.mean_diff_thr ∧ (applySizeUpdate s).cfg_grid_size = s.cfg_grid_size ∧
      (applySizeUpdate s).cfg_cell_size = s.cfg_cell_size ∧ (applySizeUpdate s).alpha = s.alpha ∧
      (applySizeUpdate s).smoothing_size = s.smoothing_size ∧
      (applySizeUpdate s).max_n_mean_diff_cells = s.max_n_mean_diff_cells ∧
      (applySizeUpdate s).min_n_land_cells = s.min_n_land_cells ∧ (applySizeUpdate s).size_update = false := by
    unfold applySizeUpdate
    by_cases hu : s.size_update = true
    · rw [if_pos hu]; exact ⟨rfl, rfl, rfl, rfl, rfl, rfl, rfl, rfl, rfl, rfl⟩
    · rw [if_neg hu]; exact ⟨rfl, rfl, rfl, rfl, rfl, rfl, rfl, rfl, rfl, by simpa using hu⟩
  unfold run at h
  dsimp only at h
  generalize hs2 : applySizeUpdate s = s2 at h h2 q
  obtain ⟨g', e, f, st⟩ := binCloud_stats cloud (s2.previous.setFilterLimits s2.pos.x s2.pos.y).reset h2.sized'
    (centred_setFilterLimits s2.previous s2.pos.x s2.pos.y)
  have hnn : g'.n = s2.grid.n := by rw [f.2.2.1, h2.same_n]; rfl
  unfold processPointcloud at h
  dsimp only at h
  rw [e] at h
  simp only [Option.map_some, Option.bind_some] at h
  unfold Grid.combine at h
  rw [if_pos hnn] at h
  cases h
  exact ⟨q.1, q.2.1, q.2.2.1, q.2.2.2.1, q.2.2.2.2.1, q.2.2.2.2.2.1, q.2.2.2.2.2.2.1, q.2.2.2.2.2.2.2.1, q.2.2.2.2.2.2.2.2.1,
    q.2.2.2.2.2.2.2.2.2, f.1.trans h2.gs.symm, f.2.1.trans h2.cs.symm, rfl, rfl, rfl⟩

theorem applySizeUpdate_eff {s : Planner K} (h : Applied s) :
    (applySizeUpdate s).grid.grid_size = s.cfg_grid_size ∧ (applySizeUpdate s).grid.cell_size = s.cfg_cell_size ∧
    (applySizeUpdate s).n_lines_padding = s.smoothing_size := by
  unfold applySizeUpdate
  by_cases hu : s.size_update = true
  · rw [if_pos hu]; exact ⟨rfl, rfl, rfl⟩
  · rw [if_neg hu]; exact h (by simpa using hu)

theorem applied_run {s s' : Planner K} (hi : PlannerInv s) (ha : Applied s) (cloud : List (CloudPoint K))
    (h : run s (.cloud cloud) = some s') : Applied s' := by
  obtain ⟨_, _, _, p4, p5, _, p7, _, _, _, p11, p12, p13, _⟩ := run_params hi cloud h
  obtain ⟨a, b, c⟩ := applySizeUpdate_eff ha
  intro _
  rw [p11, p12, p13, p4, p5, p7]
  exact ⟨a, b, c⟩

theorem applied_step {s s' : Planner K} (hi : PlannerInv s) (ha : Applied s) (e : PlannerEvent K) (h : plannerStep s e = some s') :
    Applied s' := by
  cases e with
  | pose p => cases h; exact ha
  | reconfigure a b c d e f g i j => cases h; exact applied_reconfigure _ _ _ _ _ _ _ _ _ _
  | cloud c => exact applied_run hi ha c h

theorem holds_step {s s' : Planner K} {c : LandCfg K} (hi : PlannerInv s) (hc : Holds c s) (e : PlannerEvent K) (he : e.NoConfig)
    (h : plannerStep s e = some s') : Holds c s' := by
  cases e with
  | pose p => cases h; exact ⟨hc.h1, hc.h2, hc.h3, hc.h4, hc.h5, hc.h6, hc.h7, hc.h8, hc.h9⟩
  | reconfigure a b c d e f g i j => exact absurd he id
  | cloud l =>
    obtain ⟨p1, p2, p3, p4, p5, p6, p7, p8, p9, _⟩ := run_params hi l h
    exact ⟨p1.trans hc.h1, p2.trans hc.h2, p3.trans hc.h3, p4.trans hc.h4, p5.trans hc.h5, p6.trans hc.h6, p7.trans hc.h7,
      p8.trans hc.h8, p9.trans hc.h9⟩

theorem history_ok (es : List (PlannerEvent K)) : ∀ s : Planner K, PlannerInv s → Applied s → (∀ e ∈ es, e.Sane) →
    ∃ s', loopM plannerStep s es = some s' ∧ PlannerInv s' ∧ Applied s' := by
  induction es with
  | nil => intro s hi ha _; exact ⟨s, rfl, hi, ha⟩
  | cons e es ih =>
    intro s hi ha hs
    obtain ⟨t, ht, hti⟩ := inv_step hi e (hs e List.mem_cons_self)
    have hta := applied_step hi ha e ht
    obtain ⟨u, hu, r⟩ := ih t hti hta fun x hx => hs x (List.mem_cons_of_mem _ hx)
    exact ⟨u, by unfold loopM; rw [ht]; exact hu, r⟩

theorem later_ok (es : List (PlannerEvent K)) : ∀ (s : Planner K) (c : LandCfg K), PlannerInv s → Applied s → Holds c s →
    (∀ e ∈ es, e.NoConfig) → ∃ s', loopM plannerStep s es = some s' ∧ PlannerInv s' ∧ Applied s' ∧ Holds c s' := by
  induction es with
  | nil => intro s c hi ha hc _; exact ⟨s, rfl, hi, ha, hc⟩
  | cons e es ih =>
    intro s c hi ha hc hs
    have hn := hs e List.mem_cons_self
    obtain ⟨t, ht, hti⟩ := inv_step hi e (by cases e with
      | reconfigure a b c d e f g i j => exact absurd hn id
      | pose p => trivial
      | cloud l => trivial)
    obtain ⟨u, hu, r⟩ := ih t c hti (applied_step hi ha e ht) (holds_step hi hc e hn ht) fun x hx => hs x (List.mem_cons_of_mem _ hx)
    exact ⟨u, by unfold loopM; rw [ht]; exact hu, r⟩

theorem loopM_two {S A : Type*} (f : S → A → Option S) (l l' : List A) (s t : S) (h : loopM f s l = some t) :
    loopM f s (l ++ l') = loopM f t l' := by
  induction l generalizing s with
  | nil => cases h; rfl
  | cons a l ih =>
    unfold loopM at h
    rw [List.cons_append]
    conv_lhs => unfold loopM
    cases hf : f s a with
    | none => rw [hf] at h; cases h
    | some u => rw [hf] at h; exact ih u h

/-- The final state of a history with a last configuration, something else, and a last cloud. -/
theorem final_state (es later : List (PlannerEvent K)) (c : LandCfg K) (cloud : List (CloudPoint K)) (hs : ∀ e ∈ es, e.Sane)
    (hc : c.event.Sane) (hl : ∀ e ∈ later, e.NoConfig) :
    ∃ t s, loopM plannerStep (plannerInit : Planner K) (es ++ c.event :: later) = some t ∧ PlannerInv t ∧ Applied t ∧ Holds c t ∧
      loopM plannerStep (plannerInit : Planner K) (es ++ c.event :: later ++ [.cloud cloud]) = some s ∧
      run t (.cloud cloud) = some s ∧ PlannerInv s ∧ Holds c s := by
  obtain ⟨a, ha, hai, haa⟩ := history_ok es plannerInit inv_init applied_init hs
  obtain ⟨b, hb, hbi⟩ := inv_step hai c.event hc
  have hba := applied_step hai haa c.event hb
  have hbh : Holds c b := by
    cases hb
    exact ⟨rfl, rfl, rfl, rfl, rfl, rfl, rfl, rfl, rfl⟩
  obtain ⟨t, ht, hti, hta, hth⟩ := later_ok later b c hbi hba hbh hl
  obtain ⟨s, hr, hsi⟩ := inv_run hti cloud
  have h1 : loopM plannerStep (plannerInit : Planner K) (es ++ c.event :: later) = some t := by
    rw [loopM_two _ _ _ _ _ ha]
    unfold loopM
    rw [hb]
    exact ht
  refine ⟨t, s, h1, hti, hta, hth, ?_, hr, hsi, holds_step hti hth (.cloud cloud) trivial hr⟩
  rw [loopM_two _ _ _ _ _ h1]
  unfold loopM
  show (run t (.cloud cloud)).bind (fun s' => loopM plannerStep s' []) = _
  rw [hr]
  rfl

/-- **C85, the filter.** After any history that ends with a configuration, other events and two clouds, the grid of the second
cloud has been filtered with the configured weight against the grid of the first one: the first run has done all
changes of size, so nothing is emptied any more. -/
theorem C85_not_emptied (es later : List (PlannerEvent K)) (c : LandCfg K) (l1 l2 : List (CloudPoint K)) (hs : ∀ e ∈ es, e.Sane)
    (hc : c.event.Sane) (hl : ∀ e ∈ later, e.NoConfig) :
    ∃ s1 s2, loopM plannerStep (plannerInit : Planner K) (es ++ c.event :: later ++ [.cloud l1]) = some s1 ∧
      loopM plannerStep (plannerInit : Planner K) (es ++ c.event :: later ++ [.cloud l1, .cloud l2]) = some s2 ∧
      s2.previous = s1.grid ∧
      ∀ i j, ∃ m v, s2.grid.mean i j = c.alpha * s1.grid.mean i j + (1 - c.alpha) * m ∧
        s2.grid.variance i j = c.alpha * s1.grid.variance i j + (1 - c.alpha) * v ∧
        m = avg ((s1.previous.setFilterLimits s1.pos.x s1.pos.y).heights l2 i j) ∧
        v = popVar ((s1.previous.setFilterLimits s1.pos.x s1.pos.y).heights l2 i j) := by
  obtain ⟨t, s1, _, hti, hta, _, h1, hr, hi1, hh1⟩ := final_state es later c l1 hs hc hl
  obtain ⟨_, _, _, _, _, _, _, _, _, hu, _⟩ := run_params hti l1 hr
  obtain ⟨s2, e2, hp, _, st⟩ := C46_run s1 hi1 hu l2
  refine ⟨s1, s2, h1, ?_, hp, ?_⟩
  · rw [show es ++ c.event :: later ++ [.cloud l1, .cloud l2] = (es ++ c.event :: later ++ [.cloud l1]) ++ [.cloud l2] by simp,
      loopM_two _ _ _ _ _ h1]
    unfold loopM
    show (run s1 (.cloud l2)).bind (fun s' => loopM plannerStep s' []) = _
    rw [e2]
    rfl
  · intro i j
    obtain ⟨_, b, d⟩ := st i j
    rw [hh1.h6] at b d
    exact ⟨_, _, b, d, rfl, rfl⟩

/-- **C85, sizes.** After any history that ends with a configuration, other events and a cloud, the grid in use has the configured
size and cell size and the corresponding number of rows. -/
theorem C85_sizes (es later : List (PlannerEvent K)) (c : LandCfg K) (cloud : List (CloudPoint K)) (hs : ∀ e ∈ es, e.Sane)
    (hc : c.event.Sane) (hl : ∀ e ∈ later, e.NoConfig) :
    ∃ s, loopM plannerStep (plannerInit : Planner K) (es ++ c.event :: later ++ [.cloud cloud]) = some s ∧
      s.grid.grid_size = c.grid_size ∧ s.grid.cell_size = c.cell_size ∧ s.grid.n = ⌈c.grid_size / c.cell_size⌉.toNat ∧
      s.previous.n = s.grid.n := by
  obtain ⟨t, s, _, hti, hta, hth, h1, hr, hi, hh⟩ := final_state es later c cloud hs hc hl
  obtain ⟨_, _, _, _, _, _, _, _, _, _, p11, p12, _, _, _⟩ := run_params hti cloud hr
  obtain ⟨a, b, _⟩ := applySizeUpdate_eff hta
  have e1 : s.grid.grid_size = c.grid_size := by rw [p11, a, hth.h4]
  have e2 : s.grid.cell_size = c.cell_size := by rw [p12, b, hth.h5]
  exact ⟨s, h1, e1, e2, by rw [hi.sized.2.2, e1, e2], hi.same_n.symm⟩

end

/-- **C85, landability.** After any history that ends with a configuration, other events and a cloud, the cells reported landable
are exactly those that satisfy the configured conditions: without smoothing, enough points and a small enough standard deviation;
with smoothing, few enough uneven cells and enough dense and flat cells in the neighbourhood of the configured width. -/
theorem C85_landable (es later : List (PlannerEvent ℝ)) (c : LandCfg ℝ) (cloud : List (CloudPoint ℝ)) (hs : ∀ e ∈ es, e.Sane)
    (hc : c.event.Sane) (hl : ∀ e ∈ later, e.NoConfig) :
    ∃ s, loopM plannerStep (plannerInit : Planner ℝ) (es ++ c.event :: later ++ [.cloud cloud]) = some s ∧
      (c.smoothing ≤ 0 → ∀ i j, s.grid.land i j = 1 ↔
        c.n_points ≤ s.grid.counter i j ∧ Real.sqrt (s.grid.variance i j) ≤ c.std_dev) ∧
      (0 < c.smoothing → ∀ i j, InGrid s.grid.n i j → (s.grid.land i j = 1 ↔
        1 ≤ c.max_diff ∧
        (Nat.card {d : ℤ × ℤ // d ∈ block c.smoothing i j ∧
          |s.grid.mean i j - heightAt s.grid d.1 d.2| > c.mean_diff} : ℤ) ≤ c.max_diff ∧
        c.min_land < (Nat.card {d : ℤ × ℤ // d ∈ block c.smoothing i j ∧ InGrid s.grid.n d.1 d.2 ∧
          c.n_points ≤ s.grid.counter d.1 d.2 ∧ Real.sqrt (s.grid.variance d.1 d.2) ≤ c.std_dev} : ℤ))) := by
  obtain ⟨t, s, _, hti, hta, hth, h1, hr, hi, hh⟩ := final_state es later c cloud hs hc hl
  obtain ⟨_, _, _, _, _, _, _, _, _, _, _, _, p13, _, hland⟩ := run_params hti cloud hr
  obtain ⟨_, _, pad⟩ := applySizeUpdate_eff hta
  have hp : s.n_lines_padding = c.smoothing := by rw [p13, pad, hth.h7]
  refine ⟨s, h1, ?_, ?_⟩
  · intro h0 i j
    have := (C45_unsmoothed s (by rw [hp]; exact h0) i j (hi.var i j)).1
    rw [hland, hh.h1, hh.h2] at this
    exact this
  · intro h0 i j hij
    have := (C45_smoothed s (by rw [hp]; exact h0) hi.var i j hij).1
    unfold DenseFlat at this
    rw [hland, hh.h1, hh.h2, hh.h3, hh.h8, hh.h9, hp] at this
    exact this

/-- A history with a change of all sizes: it is sane, and the grid has the new size after the next cloud. -/
example :
    let c : LandCfg ℚ := ⟨1, 1/10, 3/10, 6, 2, 1/2, 0, 2, 9⟩
    c.event.Sane ∧
    (loopM plannerStep (plannerInit : Planner ℚ) ([.cloud [⟨some 0, some 0, some 1⟩]] ++ c.event :: [.pose ⟨5, 5, 0⟩] ++
      [.cloud [⟨some 5, some 5, some 3⟩]])).map (fun s => (s.grid.n, s.grid.counter 1 1, s.grid.mean 1 1, s.grid.land 1 1, s.n_lines_padding)) =
      some (3, 1, 3/2, 1, 0) := by
  refine ⟨?_, by decide +kernel⟩
  unfold LandCfg.event PlannerEvent.Sane
  norm_num

end Landing
end Avoidance
