import Mathlib.Data.Finset.Card
import Mathlib.Data.Finset.Image
import Verif.LandingSystem
import Verif.SlpObserveProps
import Verif.SlpSpiralProps

/-!
# From the point cloud to the landing (C106)
-/

namespace Avoidance
namespace Landing

set_option linter.unusedSectionVars false

variable {K : Type*} [Field K] [LinearOrder K] [IsStrictOrderedRing K] [FloorRing K]

/-! ## Specification -/

/-- A run of both nodes: `S k` is the state before event `ev k`, for `k < N`; nothing undefined happened. -/
structure LandRun (sqrt : K → K) (ny : V3 (Option K) → V3 (Option K) → Option K) (N : ℕ) (S : ℕ → LandSys K) (ev : ℕ → LandEvent K) : Prop where
  start : S 0 = landInit
  step : ∀ k < N, landStep sqrt ny (S k) (ev k) = some (S (k + 1))

/-- Configuration changes of the planner have positive sizes and `α` between 0 and 1. -/
def LandEvent.Sane : LandEvent K → Prop
  | .planner e => e.Sane
  | _ => True

/-- A cell with enough points, whose standard deviation is at most the threshold. -/
def FlatCell (q : Planner K) (a b : ℤ) : Prop :=
  q.n_points_thr ≤ q.grid.counter a b ∧ 0 ≤ q.std_dev_thr ∧ q.grid.variance a b ≤ q.std_dev_thr ^ 2

instance (q : Planner K) (a b : ℤ) : Decidable (FlatCell q a b) := by unfold FlatCell; infer_instance

/-- The verdict on the cell `(x, y)` after the run on the cloud `c`, in terms of what was measured: the cell is in the grid; without
smoothing it is itself flat; with smoothing (over `p` lines) at most the allowed number of the cells around it differ from it in height by
more than the threshold, and more than the required number of them are flat cells of the grid.  The points counted for a cell are those of
the cloud `c` in its square, in the grid centred at the vehicle. -/
def MeasuredLandable (q : Planner K) (c : List (CloudPoint K)) (x y : ℤ) : Prop :=
  InGrid q.grid.n x y ∧
  (q.n_lines_padding ≤ 0 → FlatCell q x y) ∧
  (0 < q.n_lines_padding →
    (((block q.n_lines_padding x y).filter fun d => |q.grid.mean x y - heightAt q.grid d.1 d.2| > q.mean_diff_thr).card : ℤ)
      ≤ q.max_n_mean_diff_cells ∧
    q.min_n_land_cells < (((block q.n_lines_padding x y).filter fun d => InGrid q.grid.n d.1 d.2 ∧ FlatCell q d.1 d.2).card : ℤ)) ∧
  (∀ a b, q.grid.counter a b = (q.grid.heights c a b).length) ∧
  q.grid.min_x = q.pos.x - q.grid.grid_size / 2 ∧ q.grid.max_x = q.pos.x + q.grid.grid_size / 2 ∧
  q.grid.min_y = q.pos.y - q.grid.grid_size / 2 ∧ q.grid.max_y = q.pos.y + q.grid.grid_size / 2

/-- An iteration of the state machine that does take place. -/
def Iterates (S : ℕ → LandSys K) (ev : ℕ → LandEvent K) (k : ℕ) : Prop := ev k = .node .iterate ∧ (S k).node.grid_received = true

/-! ## The planner's verdict -/

theorem cellLand_flat (q : Planner K) (a b : ℤ) (hv : 0 ≤ q.grid.variance a b) : cellLand q q.grid a b = 1 ↔ FlatCell q a b := by
  unfold cellLand FlatCell sqrtGt
  rw [pow_two]
  by_cases h : (q.grid.counter a b : K) < q.n_points_thr ∨ 0 ≤ q.grid.variance a b ∧ (q.std_dev_thr < 0 ∨ q.std_dev_thr * q.std_dev_thr < q.grid.variance a b)
  · rw [if_pos h]
    refine ⟨fun h0 => absurd h0 (by norm_num), fun ⟨h1, h2, h3⟩ => ?_⟩
    rcases h with h | ⟨_, h | h⟩
    · exact absurd h (not_lt.mpr h1)
    · exact absurd h (not_lt.mpr h2)
    · exact absurd h (not_lt.mpr h3)
  · rw [if_neg h]
    push Not at h
    exact ⟨fun _ => ⟨h.1, (h.2 hv).1, (h.2 hv).2⟩, fun _ => rfl⟩

theorem isLandingPossible_grid (s : Planner K) (x y : ℤ) :
    (isLandingPossible s).grid.land x y = if s.n_lines_padding > 0 then smoothedLand s s.grid x y else cellLand s s.grid x y := by
  unfold isLandingPossible
  dsimp only
  split_ifs <;> rfl

/-- What a run on a cloud reports. -/
theorem cloud_reports {p q : Planner K} (h : PlannerInv p) (c : List (CloudPoint K)) (hr : plannerStep p (.cloud c) = some q) :
    PlannerInv q ∧ q.previous = (applySizeUpdate p).grid ∧
      (∀ x y, InGrid q.grid.n x y → (q.grid.land x y = 0 ∨ q.grid.land x y = 1) ∧ (q.grid.land x y = 1 → MeasuredLandable q c x y)) := by
  have hq : PlannerInv q := by
    obtain ⟨s', e1, h1⟩ := inv_run h c
    have : some q = some s' := hr.symm.trans e1
    cases this
    exact h1
  refine ⟨hq, ?_⟩
  have h2 := inv_applySizeUpdate h
  change run p (.cloud c) = some q at hr
  unfold run at hr
  dsimp only at hr
  generalize applySizeUpdate p = s2 at h2 hr
  obtain ⟨g', e, f, st⟩ := binCloud_stats c (s2.previous.setFilterLimits s2.pos.x s2.pos.y).reset h2.sized'
    (centred_setFilterLimits s2.previous s2.pos.x s2.pos.y)
  have hnn : g'.n = s2.grid.n := by rw [f.2.2.1, h2.same_n]; rfl
  unfold processPointcloud at hr
  dsimp only at hr
  rw [e] at hr
  simp only [Option.map_some, Option.bind_some] at hr
  unfold Grid.combine at hr
  rw [if_pos hnn] at hr
  simp only [Option.map_some, Option.some.injEq] at hr
  generalize hu : ({ s2 with grid := { g' with mean := fun i j => s2.alpha * s2.grid.mean i j + (1 - s2.alpha) * g'.mean i j, variance := fun i j => s2.alpha * s2.grid.variance i j + (1 - s2.alpha) * g'.variance i j }, previous := s2.grid, grid_seq := s2.grid_seq + 1 } : Planner K) = u at hr
  have hv : ∀ a b, 0 ≤ u.grid.variance a b := by
    intro a b
    have := hq.var a b
    rw [← hr] at this
    exact this
  have eq1 : q.n_lines_padding = u.n_lines_padding := by rw [← hr]; rfl
  have eflat : ∀ a b, FlatCell q a b ↔ FlatCell u a b := by intro a b; rw [← hr]; rfl
  have eh : ∀ a b, heightAt q.grid a b = heightAt u.grid a b := by intro a b; rw [← hr]; rfl
  have en : q.grid.n = u.grid.n := by rw [← hr]; rfl
  have em : q.grid.mean = u.grid.mean := by rw [← hr]; rfl
  have e1 : q.mean_diff_thr = u.mean_diff_thr := by rw [← hr]; rfl
  have e2 : q.max_n_mean_diff_cells = u.max_n_mean_diff_cells := by rw [← hr]; rfl
  have e3 : q.min_n_land_cells = u.min_n_land_cells := by rw [← hr]; rfl
  have hcount : ∀ a b, q.grid.counter a b = (q.grid.heights c a b).length := by
    intro a b
    have := (st a b [] ⟨by simp [Grid.reset], by simp [Grid.reset, avg], by simp [Grid.reset, popVar]⟩).1
    have e4 : q.grid.counter = g'.counter := by rw [← hr, ← hu]; rfl
    have e5 : q.grid.heights c a b = g'.heights c a b := by rw [← hr, ← hu]; rfl
    rw [e4, e5, this, heights_frame f]
    simp
  have hlim : q.grid.min_x = q.pos.x - q.grid.grid_size / 2 ∧ q.grid.max_x = q.pos.x + q.grid.grid_size / 2 ∧
      q.grid.min_y = q.pos.y - q.grid.grid_size / 2 ∧ q.grid.max_y = q.pos.y + q.grid.grid_size / 2 := by
    have a1 : q.grid.min_x = g'.min_x := by rw [← hr, ← hu]; rfl
    have a2 : q.grid.max_x = g'.max_x := by rw [← hr, ← hu]; rfl
    have a3 : q.grid.min_y = g'.min_y := by rw [← hr, ← hu]; rfl
    have a4 : q.grid.max_y = g'.max_y := by rw [← hr, ← hu]; rfl
    have a5 : q.grid.grid_size = g'.grid_size := by rw [← hr, ← hu]; rfl
    have a6 : q.pos = s2.pos := by rw [← hr, ← hu]; rfl
    obtain ⟨b1, b2, b3, b4, b5, b6, b7, -⟩ := f
    rw [a1, a2, a3, a4, a5, a6, b4, b5, b6, b7, b1]
    exact ⟨rfl, rfl, rfl, rfl⟩
  refine ⟨by rw [← hr, ← hu]; rfl, fun x y hxy => ?_⟩
  have hxu : InGrid u.grid.n x y := by rw [← en]; exact hxy
  have hl : q.grid.land x y = if u.n_lines_padding > 0 then smoothedLand u u.grid x y else cellLand u u.grid x y := by
    rw [← hr]; exact isLandingPossible_grid u x y
  by_cases hp : u.n_lines_padding > 0
  · rw [if_pos hp, smoothedLand_eq u u.grid x y hxu] at hl
    constructor
    · rw [hl]; split_ifs
      · exact Or.inr rfl
      · exact Or.inl rfl
    · intro h1
      rw [hl] at h1
      split_ifs at h1 with hc
      · refine ⟨hxy, fun hp' => absurd hp (by rw [← eq1]; omega), fun _ => ?_, hcount, hlim⟩
        rw [eq1, e1, e2, e3, em, en]
        simp only [eh, eflat]
        refine ⟨hc.2.1, ?_⟩
        have hs : (block u.n_lines_padding x y).filter (fun c => InGrid u.grid.n c.1 c.2 ∧ cellLand u u.grid c.1 c.2 = 1) =
            (block u.n_lines_padding x y).filter (fun d => InGrid u.grid.n d.1 d.2 ∧ FlatCell u d.1 d.2) := by
          apply Finset.filter_congr
          intro d _
          rw [cellLand_flat u _ _ (hv _ _)]
        rw [← hs]
        exact hc.2.2
      · exact absurd h1 (by norm_num)
  · rw [if_neg hp] at hl
    constructor
    · rw [hl]; exact cellLand_zero_one u u.grid x y
    · intro h1
      refine ⟨hxy, fun _ => ?_, fun hp' => absurd hp' (by rw [eq1]; exact hp), hcount, hlim⟩
      rw [eflat, ← cellLand_flat u _ _ (hv _ _), ← hl]
      exact h1

/-! ## The node's sequence numbers -/

theorem goToPublish_seq (ny : V3 (Option K) → V3 (Option K) → Option K) (w : Slp K) : (goToPublish ny w).grid_seq = w.grid_seq ∧ (goToPublish ny w).grid = w.grid := by
  unfold goToPublish publish
  split_ifs <;> exact ⟨rfl, rfl⟩

theorem exploreNext_seq (w v : Slp K) (h : exploreNext w = some v) : v.grid_seq = w.grid_seq ∧ v.grid = w.grid := by
  unfold exploreNext exploreGoal at h
  dsimp only at h
  split_ifs at h with h0
  obtain ⟨d, _, rfl⟩ := Option.map_eq_some_iff.mp h
  unfold exploreAdvance exploreStart
  dsimp only
  split_ifs <;> exact ⟨rfl, rfl⟩

theorem runGoTo_seq (ny : V3 (Option K) → V3 (Option K) → Option K) (w v : Slp K) (t : Transition) (h : runGoTo ny w = some (t, v)) : v.grid_seq = w.grid_seq ∧ v.grid = w.grid := by
  unfold runGoTo at h
  obtain ⟨a, _, h⟩ := Option.bind_eq_some_iff.mp h
  have g := goToPublish_seq ny w
  unfold goToDecide at h
  split_ifs at h
  · cases h; exact g
  · obtain ⟨u, hu, e⟩ := Option.map_eq_some_iff.mp h
    cases e
    have := exploreNext_seq _ _ hu
    exact ⟨this.1.trans g.1, this.2.trans g.2⟩
  · cases h; exact g

theorem runAltitude_seq (w v : Slp K) (t : Transition) (h : runAltitudeChange w = some (t, v)) :
    v.grid_seq = w.grid_seq ∧ v.grid = w.grid ∧ (t = .NEXT1 → v.start_seq = w.grid_seq) := by
  unfold runAltitudeChange at h
  obtain ⟨a, _, h⟩ := Option.map_eq_some_iff.mp h
  unfold altitudeDecide at h
  dsimp only at h
  split_ifs at h
  · cases h; exact ⟨rfl, rfl, fun _ => rfl⟩
  · cases h; exact ⟨rfl, rfl, fun h => by cases h⟩

theorem runLoiter_seq (w v : Slp K) (t : Transition) (h : runLoiter w = (t, v)) :
    v.grid_seq = w.grid_seq ∧ v.grid = w.grid ∧ v.start_seq = w.start_seq ∧ (t = .REPEAT → |w.grid_seq - w.start_seq| ≤ 20) := by
  unfold runLoiter loiterDecide at h
  have e : (loiterPrepare w).grid_seq = w.grid_seq ∧ (loiterPrepare w).start_seq = w.start_seq ∧ (loiterPrepare w).grid = w.grid := by
    unfold loiterPrepare publish
    split_ifs <;> exact ⟨rfl, rfl, rfl⟩
  split_ifs at h with hc
  · cases h; exact ⟨e.1, e.2.2, e.2.1, fun _ => by rw [← e.1, ← e.2.1]; exact hc⟩
  · cases h; exact ⟨e.1, e.2.2, e.2.1, fun h => by cases h⟩

theorem runEvaluate_seq (w v : Slp K) (t : Transition) (h : runEvaluateGrid w = some (t, v)) : v.grid_seq = w.grid_seq ∧ v.grid = w.grid := by
  unfold runEvaluateGrid evaluateDecide at h
  obtain ⟨b, _, h⟩ := Option.bind_eq_some_iff.mp h
  split_ifs at h
  · cases h; exact ⟨rfl, rfl⟩
  · obtain ⟨o, _, h⟩ := Option.map_eq_some_iff.mp h
    cases o <;> (cases h; exact ⟨rfl, rfl⟩)

/-- What an iteration does to the grid and the sequence numbers. -/
theorem calc_seq (ny : V3 (Option K) → V3 (Option K) → Option K) (w w' : Slp K) (h : calculateWaypoint ny w = some w') :
    w'.grid_seq = w.grid_seq ∧ w'.grid = w.grid ∧
    (w'.state = .LOITER → (w.state = .LOITER ∧ w'.start_seq = w.start_seq ∧ |w.grid_seq - w.start_seq| ≤ 20) ∨
      (w.state = .ALTITUDE_CHANGE ∧ w'.start_seq = w.grid_seq)) := by
  have f := update_frame w
  have fg := f.2.2.1
  have fs := f.2.2.2.2.2.2.2.2.2.2.2.2.1
  have fst := f.2.2.2.2.2.2.2.2.2.2.2.2.2.1
  rcases calc_cases ny w w' h with ⟨ht, rfl⟩ | ⟨ht, t, v, rfl, hm⟩
  · refine ⟨fs, fg, fun hl => ?_⟩
    exfalso
    rw [slpChoose_state] at hl
    revert hl
    cases ({ updateSlpState w with trigger_reset := false } : Slp K).state <;> exact fun h => by cases h
  · have key : v.grid_seq = (updateSlpState w).grid_seq ∧ v.grid = (updateSlpState w).grid := by
      cases hs : w.state <;> rw [hs] at hm <;> dsimp only at hm
      · exact runGoTo_seq ny _ _ _ hm
      · exact ⟨(runLoiter_seq _ _ _ hm).1, (runLoiter_seq _ _ _ hm).2.1⟩
      · unfold runLand publish landPrepare at hm
        cases hm
        split_ifs <;> exact ⟨rfl, rfl⟩
      · exact ⟨(runAltitude_seq _ _ _ hm).1, (runAltitude_seq _ _ _ hm).2.1⟩
      · exact runEvaluate_seq _ _ _ hm
      · unfold runGoToLand publish at hm
        dsimp only at hm
        split_ifs at hm <;> (cases hm; exact ⟨rfl, rfl⟩)
    have e1 : (if t ≠ .REPEAT then slpChoose { v with state_changed := false } t else { v with state_changed := false }).grid_seq = v.grid_seq ∧
        (if t ≠ .REPEAT then slpChoose { v with state_changed := false } t else { v with state_changed := false }).grid = v.grid ∧
        (if t ≠ .REPEAT then slpChoose { v with state_changed := false } t else { v with state_changed := false }).start_seq = v.start_seq := by
      split_ifs <;> exact ⟨rfl, rfl, rfl⟩
    refine ⟨e1.1.trans (key.1.trans fs), e1.2.1.trans (key.2.trans fg), fun hl => ?_⟩
    rw [e1.2.2]
    cases hs : w.state <;> rw [hs] at hm <;> dsimp only at hm
    · exfalso
      obtain ⟨k, ht', _⟩ := runGoTo_out ny _ _ _ hm
      have vs : v.state = .GOTO := by rw [k.state, f.1, hs]
      rcases ht' with rfl | rfl
      · rw [if_pos (by decide), slpChoose_state] at hl
        have : usmTable .GOTO slpTable v.state .NEXT1 = .LOITER := hl
        rw [vs] at this
        exact absurd this (by decide)
      · rw [if_neg (by decide)] at hl
        have : v.state = .LOITER := hl
        rw [vs] at this; cases this
    · left
      obtain ⟨a1, a2, a3, a4⟩ := runLoiter_seq _ _ _ hm
      obtain ⟨k, hc⟩ := runLoiter_out _ _ _ hm
      have vs : v.state = .LOITER := by rw [k.state, f.1, hs]
      rcases hc with ⟨rfl, _⟩ | ⟨rfl, _⟩
      · refine ⟨rfl, a3.trans fst, ?_⟩
        rw [← fs, ← fst]
        exact a4 rfl
      · exfalso
        rw [if_pos (by decide), slpChoose_state] at hl
        have : usmTable .GOTO slpTable v.state .NEXT1 = .LOITER := hl
        rw [vs] at this
        exact absurd this (by decide)
    · exfalso
      unfold runLand publish landPrepare at hm
      cases hm
      rw [if_neg (by decide)] at hl
      have h2 : (updateSlpState w).state = .LOITER := by
        revert hl
        split_ifs <;> exact fun h => h
      rw [f.1, hs] at h2; cases h2
    · right
      obtain ⟨a1, a2, a3⟩ := runAltitude_seq _ _ _ hm
      obtain ⟨k, ht', _⟩ := runAltitude_out _ _ _ hm
      have vs : v.state = .ALTITUDE_CHANGE := by rw [k.state, f.1, hs]
      rcases ht' with rfl | rfl
      · exact ⟨rfl, (a3 rfl).trans fs⟩
      · exfalso
        rw [if_neg (by decide)] at hl
        have : v.state = .LOITER := hl
        rw [vs] at this; cases this
    · exfalso
      obtain ⟨k, _, _, _, hc⟩ := runEvaluate_out _ _ _ hm
      have vs : v.state = .EVALUATE_GRID := by rw [k.state, f.1, hs]
      rcases hc with ⟨rfl, _⟩ | ⟨rfl, _⟩
      · rw [if_pos (by decide), slpChoose_state] at hl
        have : usmTable .GOTO slpTable v.state .NEXT1 = .LOITER := hl
        rw [vs] at this
        exact absurd this (by decide)
      · rw [if_pos (by decide), slpChoose_state] at hl
        have : usmTable .GOTO slpTable v.state .NEXT2 = .LOITER := hl
        rw [vs] at this
        exact absurd this (by decide)
    · exfalso
      obtain ⟨k, _, _, _, ht'⟩ := runGoToLand_out ny _ _ _ hm
      have vs : v.state = .GOTO_LAND := by rw [k.state, f.1, hs]
      rcases ht'.symm with ⟨rfl, _⟩ | ⟨rfl, _⟩
      · rw [if_pos (by decide), slpChoose_state] at hl
        have : usmTable .GOTO slpTable v.state .NEXT1 = .LOITER := hl
        rw [vs] at this
        exact absurd this (by decide)
      · rw [if_neg (by decide)] at hl
        have : v.state = .LOITER := hl
        rw [vs] at this; cases this

/-! ## What holds between any two events -/

/-- A message on its way: the grid of a planner, landable nowhere or else the grid of the run on a cloud, the one before the cloud after
which the message was sent. -/
def Backed (sqrt : K → K) (S : ℕ → LandSys K) (ev : ℕ → LandEvent K) (k : ℕ) (m : GridMsg K) : Prop :=
  ∃ p : Planner K, p.previous.Sized ∧ m = publishSerialGrid sqrt p m.seq ∧
    (∀ x y, InGrid p.previous.n x y → p.previous.land x y = 0 ∨ p.previous.land x y = 1) ∧
    ((∀ x y, p.previous.land x y = 0) ∨
      ∃ t c, t < k ∧ ev t = .planner (.cloud c) ∧ (S (t + 1)).planner.grid = p.previous ∧ (S t).seq + 1 = m.seq)

theorem Backed.mono {sqrt : K → K} {S : ℕ → LandSys K} {ev : ℕ → LandEvent K} {k : ℕ} {m : GridMsg K} (h : Backed sqrt S ev k m) : Backed sqrt S ev (k + 1) m := by
  obtain ⟨p, h1, h2, h3, h4⟩ := h
  refine ⟨p, h1, h2, h3, ?_⟩
  rcases h4 with h4 | ⟨t, c, a, b⟩
  · exact Or.inl h4
  · exact Or.inr ⟨t, c, by omega, b⟩

/-- The planner's side. -/
structure PlanSide (S : ℕ → LandSys K) (ev : ℕ → LandEvent K) (k : ℕ) : Prop where
  inv : PlannerInv (S k).planner
  flags : ∀ x y, InGrid (S k).planner.grid.n x y → (S k).planner.grid.land x y = 0 ∨ (S k).planner.grid.land x y = 1
  grid : (∀ x y, (S k).planner.grid.land x y = 0) ∨
    ∃ t c, t < k ∧ ev t = .planner (.cloud c) ∧ (S (t + 1)).planner.grid = (S k).planner.grid ∧ (S t).seq + 1 = (S k).seq

/-- The wire. -/
structure WireSide (sqrt : K → K) (S : ℕ → LandSys K) (ev : ℕ → LandEvent K) (k : ℕ) : Prop where
  backed : ∀ m ∈ (S k).wire, Backed sqrt S ev k m
  order : (S k).wire.Pairwise (fun m m' => m.seq < m'.seq)
  below : ∀ m ∈ (S k).wire, m.seq < (S k).seq
  fresh : (S k).node.grid_received = true → (∀ m ∈ (S k).wire, (S k).node.gen.grid_seq < m.seq) ∧ (S k).node.gen.grid_seq < (S k).seq
  past : ∀ k' < k, Iterates S ev k' → (S k').node.gen.grid_seq ≤ (S k).node.gen.grid_seq ∧
    (∀ m ∈ (S k).wire, (S k').node.gen.grid_seq < m.seq) ∧ (S k').node.gen.grid_seq < (S k).seq ∧
    ((S k).node.grid_received = true → (S k').node.gen.grid_seq < (S k).node.gen.grid_seq)

/-- The node's side. -/
structure NodeSide (S : ℕ → LandSys K) (ev : ℕ → LandEvent K) (k : ℕ) : Prop where
  sized : (S k).node.gen.grid.Sized
  outside : ∀ x y, ¬ InGrid (S k).node.gen.grid.n x y → (S k).node.gen.grid.land x y = 0
  seen : ∀ x y, (S k).node.gen.grid.land x y = 1 → ∃ t c, t < k ∧ ev t = .planner (.cloud c) ∧ (S t).seq + 1 = (S k).node.gen.grid_seq ∧
    (S (t + 1)).planner.grid.land x y = 1 ∧ InGrid (S (t + 1)).planner.grid.n x y
  loiter : (S k).node.gen.state = .LOITER → ∃ k' < k, Iterates S ev k' ∧ (S k).node.gen.start_seq = (S k').node.gen.grid_seq

/-- The callbacks that carry no grid leave grid, flag and sequence numbers alone. -/
theorem quiet_frame (ny : V3 (Option K) → V3 (Option K) → Option K) (s s' : SlpNode K) (e : SlpEvent K) (hi : e ≠ .iterate)
    (hg : ∀ m, e ≠ .grid m) (h : slpStep ny s e = some s') :
    s'.gen.grid = s.gen.grid ∧ s'.gen.grid_seq = s.gen.grid_seq ∧ s'.gen.start_seq = s.gen.start_seq ∧ s'.gen.state = s.gen.state ∧
    s'.grid_received = s.grid_received := by
  cases e with
  | iterate => exact absurd rfl hi
  | grid m => exact absurd rfl (hg m)
  | position p y => cases h; exact ⟨rfl, rfl, rfl, rfl, rfl⟩
  | reconfigure a b c d f g => cases h; exact ⟨rfl, rfl, rfl, rfl, rfl⟩
  | trajectory m =>
    cases h
    unfold trajectoryCallback
    dsimp only
    split_ifs <;> exact ⟨rfl, rfl, rfl, rfl, rfl⟩
  | state mode armed =>
    cases h
    unfold stateCallback
    cases mode <;> cases armed <;> exact ⟨rfl, rfl, rfl, rfl, rfl⟩

/-- An event, as the four things it can be. -/
theorem land_cases (sqrt : K → K) (ny : V3 (Option K) → V3 (Option K) → Option K) (s s' : LandSys K) (e : LandEvent K) (h : landStep sqrt ny s e = some s') :
    (∃ c, e = .planner (.cloud c) ∧ ∃ p, plannerStep s.planner (.cloud c) = some p ∧
      s' = { s with planner := p, seq := s.seq + 1, wire := s.wire ++ [publishSerialGrid sqrt p s.seq] }) ∨
    (∃ p, s' = { s with planner := p } ∧ p.grid = s.planner.grid ∧ (∃ e', e = .planner e' ∧ plannerStep s.planner e' = some p) ∧ ∀ c, e ≠ .planner (.cloud c)) ∨
    (e = .deliver ∧ ∃ m rest v, s.wire = m :: rest ∧ gridCallback s.node m = some v ∧ s' = { s with wire := rest, node := v }) ∨
    (e = .node .iterate ∧ s.node.grid_received = true ∧ ∃ g, calculateWaypoint ny s.node.gen = some g ∧ s' = { s with node := { s.node with gen := g, grid_received := false } }) ∨
    ((∀ c, e ≠ .planner c) ∧ ¬ (e = .node .iterate ∧ s.node.grid_received = true) ∧ s'.planner = s.planner ∧ s'.seq = s.seq ∧ (∀ m, m ∈ s'.wire → m ∈ s.wire) ∧
      (∀ r : GridMsg K → GridMsg K → Prop, s.wire.Pairwise r → s'.wire.Pairwise r) ∧
      (s'.node = s.node ∨ ∃ e', e = .node e' ∧ e' ≠ .iterate ∧ (∀ m, e' ≠ .grid m) ∧ slpStep ny s.node e' = some s'.node)) := by
  cases e with
  | planner e =>
    obtain ⟨p, hp, e2⟩ := Option.map_eq_some_iff.mp h
    cases e with
    | cloud c => left; exact ⟨c, rfl, p, hp, e2.symm⟩
    | pose q =>
      right; left
      refine ⟨p, e2.symm, ?_, ⟨_, rfl, hp⟩, fun c h => by cases h⟩
      cases hp; rfl
    | reconfigure a b c d e f g i j =>
      right; left
      refine ⟨p, e2.symm, ?_, ⟨_, rfl, hp⟩, fun c h => by cases h⟩
      cases hp; rfl
  | deliver =>
    unfold landStep at h
    cases hw : s.wire with
    | nil =>
      rw [hw] at h
      cases h
      right; right; right; right
      exact ⟨fun c h => (by cases h), fun h => (by cases h.1), rfl, rfl, fun m hm => (by rw [hw] at hm; exact hm), fun r hr => (by rw [hw]; exact hr), Or.inl rfl⟩
    | cons m rest =>
      rw [hw] at h
      obtain ⟨v, hv, e2⟩ := Option.map_eq_some_iff.mp h
      right; right; left
      exact ⟨rfl, m, rest, v, rfl, hv, e2.symm⟩
  | lose =>
    cases h
    right; right; right; right
    exact ⟨fun c h => (by cases h), fun h => (by cases h.1), rfl, rfl, fun m hm => List.mem_of_mem_tail hm, fun r hr => hr.sublist (List.tail_sublist _), Or.inl rfl⟩
  | node e =>
    cases e with
    | iterate =>
      unfold landStep at h
      dsimp only at h
      by_cases hr : s.node.grid_received = true
      · rw [if_pos hr] at h
        obtain ⟨v, hv, e2⟩ := Option.map_eq_some_iff.mp h
        obtain ⟨g, hg, e3⟩ := Option.map_eq_some_iff.mp hv
        right; right; right; left
        exact ⟨rfl, hr, g, hg, by rw [← e2, ← e3]⟩
      · rw [if_neg hr] at h
        cases h
        right; right; right; right
        exact ⟨fun c h => (by cases h), fun h => hr h.2, rfl, rfl, fun m hm => hm, fun r h => h, Or.inl rfl⟩
    | grid m =>
      cases h
      right; right; right; right
      exact ⟨fun c h => (by cases h), fun h => (by cases h.1), rfl, rfl, fun m hm => hm, fun r h => h, Or.inl rfl⟩
    | position p y =>
      unfold landStep at h
      dsimp only at h
      obtain ⟨v, hv, e2⟩ := Option.map_eq_some_iff.mp h
      right; right; right; right
      cases e2
      exact ⟨fun c h => (by cases h), fun h => (by cases h.1), rfl, rfl, fun m hm => hm, fun r h => h, Or.inr ⟨_, rfl, by simp, by simp, hv⟩⟩
    | reconfigure a b c d f g =>
      unfold landStep at h
      dsimp only at h
      obtain ⟨v, hv, e2⟩ := Option.map_eq_some_iff.mp h
      right; right; right; right
      cases e2
      exact ⟨fun c h => (by cases h), fun h => (by cases h.1), rfl, rfl, fun m hm => hm, fun r h => h, Or.inr ⟨_, rfl, by simp, by simp, hv⟩⟩
    | trajectory m =>
      unfold landStep at h
      dsimp only at h
      obtain ⟨v, hv, e2⟩ := Option.map_eq_some_iff.mp h
      right; right; right; right
      cases e2
      exact ⟨fun c h => (by cases h), fun h => (by cases h.1), rfl, rfl, fun m hm => hm, fun r h => h, Or.inr ⟨_, rfl, by simp, by simp, hv⟩⟩
    | state mode armed =>
      unfold landStep at h
      dsimp only at h
      obtain ⟨v, hv, e2⟩ := Option.map_eq_some_iff.mp h
      right; right; right; right
      cases e2
      exact ⟨fun c h => (by cases h), fun h => (by cases h.1), rfl, rfl, fun m hm => hm, fun r h => h, Or.inr ⟨_, rfl, by simp, by simp, hv⟩⟩

theorem plan_side {sqrt : K → K} {ny : V3 (Option K) → V3 (Option K) → Option K} {N : ℕ} {S : ℕ → LandSys K} {ev : ℕ → LandEvent K}
    (r : LandRun sqrt ny N S ev) (hs : ∀ k < N, (ev k).Sane) : ∀ k ≤ N, PlanSide S ev k := by
  intro k
  induction k with
  | zero =>
    intro _
    refine ⟨?_, ?_, Or.inl ?_⟩
    · rw [r.start]; exact inv_init
    · rw [r.start]; intro x y _; exact Or.inl rfl
    · rw [r.start]; intro x y; rfl
  | succ k ih =>
    intro hk
    obtain ⟨i1, i2, i3⟩ := ih (by omega)
    have hsk := hs k (by omega)
    rcases land_cases sqrt ny _ _ _ (r.step k (by omega)) with ⟨c, e, p, hp, e2⟩ | ⟨p, e2, hg, ⟨e', e3, hp⟩, _⟩ | ⟨e, m, rest, v, _, _, e2⟩ | ⟨e, _, g, _, e2⟩ | ⟨_, _, e2, e3, _⟩
    · obtain ⟨h1, _, h3⟩ := cloud_reports i1 c hp
      refine ⟨by rw [e2]; exact h1, fun x y hxy => ?_, Or.inr ⟨k, c, by omega, e, rfl, by rw [e2]⟩⟩
      rw [e2] at hxy ⊢
      exact (h3 x y hxy).1
    · have hsk' : e'.Sane := by rw [e3] at hsk; exact hsk
      obtain ⟨q, hq, hinv⟩ := inv_step i1 e' hsk'
      rw [hp] at hq
      cases hq
      have eg : (S (k + 1)).planner.grid = (S k).planner.grid := by rw [e2]; exact hg
      have es : (S (k + 1)).seq = (S k).seq := by rw [e2]
      refine ⟨by rw [e2]; exact hinv, by rw [eg]; exact i2, ?_⟩
      rw [eg, es]
      rcases i3 with i3 | ⟨t, c, a, b⟩
      · exact Or.inl i3
      · exact Or.inr ⟨t, c, by omega, b⟩
    all_goals
      have eg : (S (k + 1)).planner = (S k).planner := by rw [e2]
      have es : (S (k + 1)).seq = (S k).seq := by first | exact e3 | rw [e2]
      refine ⟨by rw [eg]; exact i1, by rw [eg]; exact i2, ?_⟩
      rw [eg, es]
      rcases i3 with i3 | ⟨t, c, a, b⟩
      · exact Or.inl i3
      · exact Or.inr ⟨t, c, by omega, b⟩

theorem wire_side {sqrt : K → K} {ny : V3 (Option K) → V3 (Option K) → Option K} {N : ℕ} {S : ℕ → LandSys K} {ev : ℕ → LandEvent K}
    (r : LandRun sqrt ny N S ev) (hs : ∀ k < N, (ev k).Sane) : ∀ k ≤ N, WireSide sqrt S ev k := by
  intro k
  induction k with
  | zero =>
    intro _
    refine ⟨?_, ?_, ?_, ?_, fun k' h => by omega⟩ <;> rw [r.start]
    · intro m hm; cases hm
    · exact List.Pairwise.nil
    · intro m hm; cases hm
    · intro h; cases h
  | succ k ih =>
    intro hk
    obtain ⟨i1, i2, i3, i4, i5⟩ := ih (by omega)
    obtain ⟨j1, j2, j3⟩ := plan_side r hs k (by omega)
    rcases land_cases sqrt ny _ _ _ (r.step k (by omega)) with ⟨c, e, p, hp, e2⟩ | ⟨p, e2, hg, ⟨e', e3, hp⟩, _⟩ | ⟨e, m, rest, v, hw, hv, e2⟩ | ⟨e, hrec, g, hc, e2⟩ | ⟨_, hni, e2, e3, e4, e5, e6⟩
    · -- a cloud
      have hit : ¬ Iterates S ev k := by rintro ⟨h, _⟩; rw [e] at h; cases h
      obtain ⟨q1, q2, _⟩ := cloud_reports j1 c hp
      have hb : Backed sqrt S ev (k + 1) (publishSerialGrid sqrt p (S k).seq) := by
        refine ⟨p, q1.sized', rfl, ?_⟩
        rw [q2]
        unfold applySizeUpdate
        by_cases hu : (S k).planner.size_update = true
        · rw [if_pos hu]
          exact ⟨fun x y _ => Or.inl rfl, Or.inl fun x y => rfl⟩
        · rw [if_neg hu]
          refine ⟨j2, ?_⟩
          rcases j3 with j3 | ⟨t, c', a, b, d1, d2⟩
          · exact Or.inl j3
          · exact Or.inr ⟨t, c', by omega, b, d1, d2⟩
      have hbelow : ∀ m ∈ (S k).wire ++ [publishSerialGrid sqrt p (S k).seq], m ∈ (S k).wire ∨ m.seq = (S k).seq := by
        intro m hm
        rcases List.mem_append.mp hm with h | h
        · exact Or.inl h
        · rw [List.mem_singleton] at h; rw [h]; exact Or.inr rfl
      refine ⟨?_, ?_, ?_, ?_, fun k' hk' hit' => ?_⟩ <;> (try rw [e2]) <;> dsimp only
      · intro m hm
        rcases List.mem_append.mp hm with h | h
        · exact (i1 m h).mono
        · rw [List.mem_singleton] at h; rw [h]; exact hb
      · rw [List.pairwise_append]
        refine ⟨i2, List.pairwise_singleton _ _, fun m hm m' hm' => ?_⟩
        rw [List.mem_singleton] at hm'
        rw [hm']
        exact i3 m hm
      · intro m hm
        rcases hbelow m hm with h | h
        · have := i3 m h; omega
        · omega
      · intro hr
        obtain ⟨a, b⟩ := i4 hr
        refine ⟨fun m hm => ?_, by omega⟩
        rcases hbelow m hm with h | h
        · exact a m h
        · omega
      · by_cases hkk : k' = k
        · rw [hkk] at hit'; exact absurd hit' hit
        · obtain ⟨a, b, c', d⟩ := i5 k' (by omega) hit'
          refine ⟨a, fun m hm => ?_, by omega, d⟩
          rcases hbelow m hm with h | h
          · exact b m h
          · omega
    · -- a pose or a configuration
      have hit : ¬ Iterates S ev k := by rintro ⟨h, _⟩; rw [e3] at h; cases h
      refine ⟨?_, ?_, ?_, ?_, fun k' hk' hit' => ?_⟩ <;> (try rw [e2]) <;> dsimp only
      · exact fun m hm => (i1 m hm).mono
      · exact i2
      · exact i3
      · exact i4
      · by_cases hkk : k' = k
        · rw [hkk] at hit'; exact absurd hit' hit
        · exact i5 k' (by omega) hit'
    · -- a delivery
      have hit : ¬ Iterates S ev k := by rintro ⟨h, _⟩; rw [e] at h; cases h
      have hseq : v.gen.grid_seq = m.seq := by
        unfold gridCallback at hv
        obtain ⟨g, _, e⟩ := Option.map_eq_some_iff.mp hv
        rw [← e]
      rw [hw] at i1 i2 i3 i5
      have hrest : ∀ m' ∈ rest, m' ∈ m :: rest := fun m' h => List.mem_cons_of_mem _ h
      rw [List.pairwise_cons] at i2
      have hms := i3 m List.mem_cons_self
      refine ⟨?_, ?_, ?_, ?_, fun k' hk' hit' => ?_⟩ <;> (try rw [e2]) <;> dsimp only
      · exact fun m' hm => (i1 m' (hrest m' hm)).mono
      · exact i2.2
      · exact fun m' hm => i3 m' (hrest m' hm)
      · intro _
        rw [hseq]
        exact ⟨i2.1, hms⟩
      · by_cases hkk : k' = k
        · rw [hkk] at hit'; exact absurd hit' hit
        · have h5 := i5 k' (by omega) hit'
          obtain ⟨a, b, c', d⟩ := h5
          have hb := b m List.mem_cons_self
          rw [hseq]
          exact ⟨hb.le, fun m' hm => b m' (hrest m' hm), c', fun _ => hb⟩
    · -- an iteration
      obtain ⟨g1, g2, _⟩ := calc_seq ny _ _ hc
      obtain ⟨f1, f2⟩ := i4 hrec
      refine ⟨?_, ?_, ?_, ?_, fun k' hk' hit' => ?_⟩ <;> (try rw [e2]) <;> dsimp only
      · exact fun m hm => (i1 m hm).mono
      · exact i2
      · exact i3
      · intro h; cases h
      · rw [g1]
        by_cases hkk : k' = k
        · rw [hkk]
          exact ⟨le_refl _, f1, f2, fun h => by cases h⟩
        · obtain ⟨a, b, c', d⟩ := i5 k' (by omega) hit'
          exact ⟨a, b, c', fun h => by cases h⟩
    · -- the rest
      have hit : ¬ Iterates S ev k := hni
      have hn : (S (k + 1)).node.gen.grid_seq = (S k).node.gen.grid_seq ∧ (S (k + 1)).node.grid_received = (S k).node.grid_received := by
        rcases e6 with h | ⟨e', _, h1, h2, h3⟩
        · rw [h]; exact ⟨rfl, rfl⟩
        · obtain ⟨_, a, _, _, b⟩ := quiet_frame ny _ _ _ h1 h2 h3
          exact ⟨a, b⟩
      refine ⟨fun m hm => (i1 m (e4 m hm)).mono, e5 _ i2, fun m hm => by rw [e3]; exact i3 m (e4 m hm), ?_, fun k' hk' hit' => ?_⟩
      · rw [hn.1, hn.2, e3]
        intro h
        exact ⟨fun m hm => (i4 h).1 m (e4 m hm), (i4 h).2⟩
      · by_cases hkk : k' = k
        · rw [hkk] at hit'; exact absurd hit' hit
        · obtain ⟨a, b, c', d⟩ := i5 k' (by omega) hit'
          rw [hn.1, hn.2, e3]
          exact ⟨a, fun m hm => b m (e4 m hm), c', d⟩

/-- Writing the cells of a message changes nothing outside the grid. -/
theorem gridCell_outside (m : GridMsg K) (l : List (ℕ × ℕ)) : ∀ (g g' : Grid K), loopM (gridCell m) g l = some g' →
    g'.n = g.n ∧ ∀ x y, ¬ InGrid g.n x y → g'.land x y = g.land x y := by
  induction l with
  | nil => intro g g' e; cases e; exact ⟨rfl, fun _ _ _ => rfl⟩
  | cons ij l ih =>
    intro g g' e
    unfold loopM at e
    obtain ⟨g1, e1, e2⟩ := Option.bind_eq_some_iff.mp e
    obtain ⟨a, b⟩ := ih g1 g' e2
    unfold gridCell at e1
    split_ifs at e1 with hin
    split at e1
    · cases e1
      refine ⟨a, fun x y hxy => ?_⟩
      rw [b x y hxy]
      dsimp only
      unfold write
      rw [if_neg]
      rintro ⟨rfl, rfl⟩
      exact hxy hin
    · cases e1

/-- What the node stores when a message of the planner arrives. -/
theorem deliver_stores (sqrt : K → K) (p : Planner K) (seq : ℤ) (hp : p.previous.Sized) (s v : SlpNode K) (hs : s.gen.grid.Sized)
    (ho : ∀ x y, ¬ InGrid s.gen.grid.n x y → s.gen.grid.land x y = 0) (h : gridCallback s (publishSerialGrid sqrt p seq) = some v) :
    v.gen.grid.Sized ∧ v.gen.grid_seq = seq ∧ v.gen.grid.n = p.previous.n ∧ v.gen.state = s.gen.state ∧ v.gen.start_seq = s.gen.start_seq ∧
    (∀ x y, InGrid p.previous.n x y → v.gen.grid.land x y = p.previous.land x y) ∧ (∀ x y, ¬ InGrid p.previous.n x y → v.gen.grid.land x y = 0) := by
  obtain ⟨v', e, n1, _, _, n4, _, n6, n7⟩ := C70_grid_round_trip sqrt p seq hp s hs
  rw [h] at e
  obtain rfl := Option.some.inj e
  refine ⟨n6, n4, n1, ?_, ?_, fun x y hxy => (n7 x y hxy).2, fun x y hxy => ?_⟩
  · unfold gridCallback at h
    obtain ⟨g, _, e⟩ := Option.map_eq_some_iff.mp h
    rw [← e]
  · unfold gridCallback at h
    obtain ⟨g, _, e⟩ := Option.map_eq_some_iff.mp h
    rw [← e]
  · unfold gridCallback at h
    obtain ⟨g, hg, e⟩ := Option.map_eq_some_iff.mp h
    obtain ⟨a, b⟩ := gridCell_outside _ _ _ _ hg
    have ev : v.gen.grid = g := by rw [← e]
    rw [ev] at n1 ⊢
    rw [n1] at a
    rw [b x y (by rw [← a]; exact hxy)]
    split_ifs with hc
    · rfl
    · apply ho
      rw [if_neg hc] at a
      rw [← a]; exact hxy

theorem node_side {sqrt : K → K} {ny : V3 (Option K) → V3 (Option K) → Option K} {N : ℕ} {S : ℕ → LandSys K} {ev : ℕ → LandEvent K}
    (r : LandRun sqrt ny N S ev) (hs : ∀ k < N, (ev k).Sane) : ∀ k ≤ N, NodeSide S ev k := by
  intro k
  induction k with
  | zero =>
    intro _
    refine ⟨?_, ?_, ?_, ?_⟩ <;> rw [r.start]
    · exact resize_sized _ _ _ (by norm_num) (by norm_num)
    · intro x y _; rfl
    · intro x y h; exact absurd h (by show ¬ (0 : ℤ) = 1; decide)
    · intro h; cases h
  | succ k ih =>
    intro hk
    obtain ⟨i1, i2, i3, i4⟩ := ih (by omega)
    have w := wire_side r hs k (by omega)
    have same : (S (k + 1)).node.gen.grid = (S k).node.gen.grid → (S (k + 1)).node.gen.grid_seq = (S k).node.gen.grid_seq →
        (S (k + 1)).node.gen.start_seq = (S k).node.gen.start_seq → (S (k + 1)).node.gen.state = (S k).node.gen.state → NodeSide S ev (k + 1) := by
      intro a b c d
      refine ⟨by rw [a]; exact i1, by rw [a]; exact i2, fun x y hxy => ?_, fun hl => ?_⟩
      · rw [a] at hxy
        rw [b]
        obtain ⟨t, c', h1, h2⟩ := i3 x y hxy
        exact ⟨t, c', by omega, h2⟩
      · rw [d] at hl
        obtain ⟨k', h1, h2⟩ := i4 hl
        exact ⟨k', by omega, by rw [c]; exact h2⟩
    rcases land_cases sqrt ny _ _ _ (r.step k (by omega)) with ⟨c, e, p, hp, e2⟩ | ⟨p, e2, hg, ⟨e', e3, hp⟩, _⟩ | ⟨e, m, rest, v, hw, hv, e2⟩ | ⟨e, hrec, g, hc, e2⟩ | ⟨_, hni, e2, e3, e4, e5, e6⟩
    · apply same <;> rw [e2]
    · apply same <;> rw [e2]
    · obtain ⟨p, b1, b2, b3, b4⟩ := w.backed m (by rw [hw]; exact List.mem_cons_self)
      rw [b2] at hv
      obtain ⟨d1, d2, d3, d4, d5, d6, d7⟩ := deliver_stores sqrt p m.seq b1 _ _ i1 i2 hv
      have en : (S (k + 1)).node = v := by rw [e2]
      refine ⟨by rw [en]; exact d1, fun x y hxy => ?_, fun x y hxy => ?_, fun hl => ?_⟩
      · rw [en] at hxy ⊢
        exact d7 x y (by rw [← d3]; exact hxy)
      · rw [en] at hxy ⊢
        have hin : InGrid p.previous.n x y := by
          by_contra hno
          rw [d7 x y hno] at hxy
          exact absurd hxy (by decide)
        rw [d6 x y hin] at hxy
        rcases b4 with b4 | ⟨t, c, h1, h2, h3, h4⟩
        · rw [b4] at hxy; exact absurd hxy (by decide)
        · exact ⟨t, c, by omega, h2, by rw [d2]; exact h4, by rw [h3]; exact hxy, by rw [h3]; exact hin⟩
      · rw [en] at hl ⊢
        rw [d4] at hl
        obtain ⟨k', h1, h2, h3⟩ := i4 hl
        exact ⟨k', by omega, h2, by rw [d5]; exact h3⟩
    · obtain ⟨g1, g2, g3⟩ := calc_seq ny _ _ hc
      have en : (S (k + 1)).node.gen = g := by rw [e2]
      refine ⟨by rw [en, g2]; exact i1, by rw [en, g2]; exact i2, fun x y hxy => ?_, fun hl => ?_⟩
      · rw [en, g2] at hxy
        rw [en, g1]
        obtain ⟨t, c', h1, h2⟩ := i3 x y hxy
        exact ⟨t, c', by omega, h2⟩
      · rw [en] at hl ⊢
        rcases g3 hl with ⟨a, b, _⟩ | ⟨a, b⟩
        · obtain ⟨k', h1, h2, h3⟩ := i4 a
          exact ⟨k', by omega, h2, by rw [b]; exact h3⟩
        · exact ⟨k, by omega, ⟨e, hrec⟩, b⟩
    · rcases e6 with h | ⟨e', _, h1, h2, h3⟩
      · apply same <;> rw [h]
      · obtain ⟨a, b, c, d, _⟩ := quiet_frame ny _ _ _ h1 h2 h3
        exact same a b c d

/-! ## The waypoint generator's part of a run -/

/-- What an event of the two nodes is for the waypoint generator node; the same position again if it is nothing. -/
def nodePart (s : LandSys K) (e : LandEvent K) : SlpEvent K :=
  let idle : SlpEvent K := .position s.node.gen.position s.node.gen.yaw
  match e with
  | .planner _ => idle
  | .lose => idle
  | .deliver => match s.wire with | [] => idle | m :: _ => .grid m
  | .node e => match e with | .grid _ => idle | .iterate => if s.node.grid_received = true then .iterate else idle | e => e

theorem node_run {sqrt : K → K} {ny : V3 (Option K) → V3 (Option K) → Option K} {N : ℕ} {S : ℕ → LandSys K} {ev : ℕ → LandEvent K}
    (r : LandRun sqrt ny N S ev) : SlpRun ny N (fun k => (S k).node) (fun k => nodePart (S k) (ev k)) := by
  refine ⟨by rw [r.start]; rfl, fun k hk => ?_⟩
  have hstep := r.step k hk
  have idle : ∀ s : SlpNode K, slpStep ny s (.position s.gen.position s.gen.yaw) = some s := fun s => rfl
  generalize S k = s at hstep
  generalize S (k + 1) = s' at hstep
  cases he : ev k with
  | planner e =>
    rw [he] at hstep
    obtain ⟨p, hp, e2⟩ := Option.map_eq_some_iff.mp hstep
    have : s'.node = s.node := by rw [← e2]; unfold announce; cases e <;> rfl
    rw [this]; rfl
  | deliver =>
    rw [he] at hstep
    unfold landStep at hstep
    unfold nodePart
    cases hw : s.wire with
    | nil => rw [hw] at hstep; cases hstep; rfl
    | cons m rest =>
      rw [hw] at hstep
      obtain ⟨v, hv, e2⟩ := Option.map_eq_some_iff.mp hstep
      dsimp only
      rw [← e2, hv]
  | lose => rw [he] at hstep; cases hstep; rfl
  | node e =>
    rw [he] at hstep
    unfold landStep at hstep
    unfold nodePart
    cases e with
    | iterate =>
      dsimp only at hstep ⊢
      by_cases hr : s.node.grid_received = true
      · rw [if_pos hr] at hstep ⊢
        obtain ⟨v, hv, e2⟩ := Option.map_eq_some_iff.mp hstep
        rw [← e2, hv]
      · rw [if_neg hr] at hstep ⊢
        cases hstep; rfl
    | grid m => cases hstep; rfl
    | position p y => cases hstep; rfl
    | reconfigure a b c d f g => cases hstep; rfl
    | trajectory m => cases hstep; rfl
    | state mode armed => cases hstep; rfl

theorem nodePart_iterate {S : ℕ → LandSys K} {ev : ℕ → LandEvent K} {k : ℕ} : (nodePart (S k) (ev k)).isIterate ↔ Iterates S ev k := by
  unfold Iterates
  cases he : ev k with
  | planner e => exact ⟨fun h => absurd h id, fun h => by cases h.1⟩
  | lose => exact ⟨fun h => absurd h id, fun h => by cases h.1⟩
  | deliver =>
    unfold nodePart
    cases hw : (S k).wire <;> exact ⟨fun h => absurd h id, fun h => by cases h.1⟩
  | node e =>
    cases e with
    | iterate =>
      unfold nodePart
      dsimp only
      by_cases hr : (S k).node.grid_received = true
      · rw [if_pos hr]; exact ⟨fun _ => ⟨rfl, hr⟩, fun _ => trivial⟩
      · rw [if_neg hr]; exact ⟨fun h => absurd h id, fun h => absurd h.2 hr⟩
    | grid m => exact ⟨fun h => absurd h id, fun h => by cases h.1⟩
    | position p y => exact ⟨fun h => absurd h id, fun h => by cases h.1⟩
    | reconfigure a b c d f g => exact ⟨fun h => absurd h id, fun h => by cases h.1⟩
    | trajectory m => exact ⟨fun h => absurd h id, fun h => by cases h.1⟩
    | state mode armed => exact ⟨fun h => absurd h id, fun h => by cases h.1⟩

theorem node_flags {sqrt : K → K} {ny : V3 (Option K) → V3 (Option K) → Option K} {N : ℕ} {S : ℕ → LandSys K} {ev : ℕ → LandEvent K}
    (r : LandRun sqrt ny N S ev) (hs : ∀ k < N, (ev k).Sane) (k : ℕ) (hk : k < N) : LandFlags (nodePart (S k) (ev k)) := by
  have w := wire_side r hs k (by omega)
  cases he : ev k with
  | planner e => trivial
  | lose => trivial
  | deliver =>
    unfold nodePart
    cases hw : (S k).wire with
    | nil => trivial
    | cons m rest =>
      obtain ⟨p, b1, b2, b3, b4⟩ := w.backed m (by rw [hw]; exact List.mem_cons_self)
      dsimp only
      intro x hx
      rw [b2] at hx
      unfold publishSerialGrid at hx
      dsimp only at hx
      obtain ⟨ij, hij, rfl⟩ := List.mem_map.mp hx
      rw [mem_indices] at hij
      exact b3 _ _ (by unfold InGrid; omega)
  | node e =>
    cases e with
    | iterate => unfold nodePart; dsimp only; split_ifs <;> trivial
    | grid m => trivial
    | position p y => trivial
    | reconfigure a b c d f g => trivial
    | trajectory m => trivial
    | state mode armed => trivial

/-! ## C106 -/

theorem sightings_card (h : ℕ → SlpNode K) (ev : ℕ → SlpEvent K) (j n : ℕ) (a b : ℤ) :
    sightings h ev j n a b = ((Finset.range n).filter fun m => (ev (j + m)).isIterate ∧ (h (j + m)).gen.grid.land a b = 1).card := by
  induction n with
  | zero => rfl
  | succ n ih =>
    rw [sightings_succ, ih, Finset.range_add_one, Finset.filter_insert]
    split_ifs with hc
    · rw [Finset.card_insert_of_notMem (by simp)]
    · rfl

/-- **C106, fresh grids.** No two iterations of the state machine work with the same grid message: the message of a later iteration has
a larger sequence number. -/
theorem C106_fresh_grids {sqrt : K → K} {ny : V3 (Option K) → V3 (Option K) → Option K} {N : ℕ} {S : ℕ → LandSys K} {ev : ℕ → LandEvent K}
    (r : LandRun sqrt ny N S ev) (hs : ∀ k < N, (ev k).Sane) (i k : ℕ) (hik : i < k) (hk : k ≤ N) (hi : Iterates S ev i) (hkI : Iterates S ev k) :
    (S i).node.gen.grid_seq < (S k).node.gen.grid_seq :=
  ((wire_side r hs k hk).past i hik hi).2.2.2 hkI.2

/-- During an uninterrupted loiter phase the start of the observation does not move. -/
theorem loiter_start {sqrt : K → K} {ny : V3 (Option K) → V3 (Option K) → Option K} {N : ℕ} {S : ℕ → LandSys K} {ev : ℕ → LandEvent K}
    (r : LandRun sqrt ny N S ev) (j : ℕ) : ∀ n, j + n ≤ N → (∀ m, j ≤ m → m ≤ j + n → (S m).node.gen.state = .LOITER) →
      (S (j + n)).node.gen.start_seq = (S j).node.gen.start_seq := by
  intro n
  induction n with
  | zero => intro _ _; rfl
  | succ n ih =>
    intro hN hl
    rw [← ih (by omega) (fun m h1 h2 => hl m h1 (by omega))]
    have h0 := hl (j + n) (by omega) (by omega)
    have h1 := hl (j + n + 1) (by omega) (by omega)
    rw [show j + (n + 1) = j + n + 1 by omega]
    rcases land_cases sqrt ny _ _ _ (r.step (j + n) (by omega)) with ⟨c, e, p, hp, e2⟩ | ⟨p, e2, hg, ⟨e', e3, hp⟩, _⟩ | ⟨e, m, rest, v, hw, hv, e2⟩ | ⟨e, hrec, g, hc, e2⟩ | ⟨_, hni, e2, e3, e4, e5, e6⟩
    · rw [e2]
    · rw [e2]
    · have : v.gen.start_seq = (S (j + n)).node.gen.start_seq := by
        unfold gridCallback at hv
        obtain ⟨g, _, e⟩ := Option.map_eq_some_iff.mp hv
        rw [← e]
      rw [e2]; exact this
    · obtain ⟨_, _, g3⟩ := calc_seq ny _ _ hc
      have en : (S (j + n + 1)).node.gen = g := by rw [e2]
      rw [en] at h1 ⊢
      rcases g3 h1 with ⟨_, b, _⟩ | ⟨a, _⟩
      · exact b
      · rw [h0] at a; cases a
    · rcases e6 with h | ⟨e', _, k1, k2, k3⟩
      · rw [h]
      · exact (quiet_frame ny _ _ _ k1 k2 k3).2.2.1

/-- The clouds behind the sightings of a cell during a loiter phase: as many as there were sightings. -/
theorem sightings_measured {sqrt : K → K} {ny : V3 (Option K) → V3 (Option K) → Option K} {N : ℕ} {S : ℕ → LandSys K} {ev : ℕ → LandEvent K}
    (r : LandRun sqrt ny N S ev) (hs : ∀ k < N, (ev k).Sane) (j n : ℕ) (hN : j + n < N)
    (g1 : ∀ m, j ≤ m → m ≤ j + n → (S m).node.gen.state = .LOITER) (x y : ℤ) : ∃ T : Finset ℕ,
      (∀ t ∈ T, t < j + n ∧ (S j).node.gen.start_seq ≤ (S t).seq ∧ (S t).seq < (S j).node.gen.start_seq + 20 ∧
        ∃ c, ev t = .planner (.cloud c) ∧ MeasuredLandable (S (t + 1)).planner c x y) ∧
      T.card = sightings (fun k => (S k).node) (fun k => nodePart (S k) (ev k)) j n x y := by
  have nr := node_run r
  rw [sightings_card]
  generalize hF : ((Finset.range n).filter fun m => (nodePart (S (j + m)) (ev (j + m))).isIterate ∧ (S (j + m)).node.gen.grid.land x y = 1) = F
  have hmem : ∀ m ∈ F, m < n ∧ Iterates S ev (j + m) ∧ (S (j + m)).node.gen.grid.land x y = 1 := by
    intro m hm
    rw [← hF, Finset.mem_filter, Finset.mem_range, nodePart_iterate] at hm
    exact hm
  -- the cloud behind each sighting
  have hsee : ∀ m : ℕ, ∃ t, m ∈ F → t < j + m ∧ (S t).seq + 1 = (S (j + m)).node.gen.grid_seq ∧
      ∃ c, ev t = .planner (.cloud c) ∧ MeasuredLandable (S (t + 1)).planner c x y := by
    intro m
    by_cases hm : m ∈ F
    · obtain ⟨m1, m2, m3⟩ := hmem m hm
      obtain ⟨t, c, h1, h2, h3, h4, h5⟩ := (node_side r hs (j + m) (by omega)).seen x y m3
      refine ⟨t, fun _ => ⟨h1, h3, c, h2, ?_⟩⟩
      have hst := r.step t (by omega)
      rw [h2] at hst
      obtain ⟨p, hp, e⟩ := Option.map_eq_some_iff.mp hst
      have ep : (S (t + 1)).planner = p := by rw [← e]; rfl
      rw [ep] at h4 h5 ⊢
      exact ((cloud_reports (plan_side r hs t (by omega)).inv c hp).2.2 x y h5).2 h4
    · exact ⟨0, fun h => absurd h hm⟩
  choose f hf using hsee
  have hinj : Set.InjOn f F := by
    intro m hm m' hm' e
    obtain ⟨-, q1, -⟩ := hf m hm
    obtain ⟨-, q2, -⟩ := hf m' hm'
    rw [e] at q1
    obtain ⟨n1, it1, -⟩ := hmem m hm
    obtain ⟨n2, it2, -⟩ := hmem m' hm'
    rcases lt_trichotomy m m' with h | h | h
    · have := C106_fresh_grids r hs (j + m) (j + m') (by omega) (by omega) it1 it2; omega
    · exact h
    · have := C106_fresh_grids r hs (j + m') (j + m) (by omega) (by omega) it2 it1; omega
  refine ⟨F.image f, fun t ht => ?_, Finset.card_image_of_injOn hinj⟩
  obtain ⟨m, hm, rfl⟩ := Finset.mem_image.mp ht
  obtain ⟨q1, q2, q3⟩ := hf m hm
  obtain ⟨m1, m2, _⟩ := hmem m hm
  have hstart := loiter_start r j m (by omega) (fun m' h1 h2 => g1 m' h1 (by omega))
  -- the iteration is after the start of the observation
  obtain ⟨k', hk', hit, hseq⟩ := (node_side r hs (j + m) (by omega)).loiter (g1 _ (by omega) (by omega))
  have hlt := C106_fresh_grids r hs k' (j + m) hk' (by omega) hit m2
  -- and not too late
  have hle : |(S (j + m)).node.gen.grid_seq - (S (j + m)).node.gen.start_seq| ≤ 20 := by
    have hc := run_iterate nr (j + m) (by omega) (nodePart_iterate.mpr m2)
    obtain ⟨_, _, g⟩ := calc_seq ny _ _ hc
    rcases g (g1 (j + m + 1) (by omega) (by omega)) with ⟨_, _, h⟩ | ⟨h, _⟩
    · exact h
    · have := g1 (j + m) (by omega) (by omega)
      rw [this] at h; cases h
  rw [abs_le] at hle
  refine ⟨by omega, by omega, by omega, q3⟩

/-- **C106.** In every run of the two nodes together - any clouds, poses, configuration changes, any loss of grid messages, any flight of
the vehicle: whenever the vehicle is landing or on its way to the landing site, there was a grid evaluation (event `i`) and a landing patch
such that each cell of the patch had been measured landable in a set `T` of distinct clouds, with `1 - β^|T|` above the threshold
(`β` and the threshold being those in force during the loiter phase before the evaluation).  All these clouds are among twenty
consecutive ones. -/
theorem C106_landing_measured {sqrt : K → K} {ny : V3 (Option K) → V3 (Option K) → Option K} {N : ℕ} {S : ℕ → LandSys K} {ev : ℕ → LandEvent K}
    (r : LandRun sqrt ny N S ev) (hs : ∀ k < N, (ev k).Sane) (k : ℕ) (hk : k ≤ N)
    (hl : (S k).node.gen.state = .GOTO_LAND ∨ (S k).node.gen.state = .LAND) :
    ∃ i j n first, i < k ∧ j + n < i ∧ (∀ m, j ≤ m → m ≤ j + n → (S m).node.gen.state = .LOITER) ∧
      (∀ m, j + n < m → m ≤ i → (S m).node.gen.state = .EVALUATE_GRID) ∧
      (∀ m, i < m → m ≤ k → (S m).node.gen.state = .GOTO_LAND ∨ (S m).node.gen.state = .LAND) ∧
      ∃ a b, ∀ x y, InPatch (S i).node.gen.smoothing_land_cell a b x y → ∃ T : Finset ℕ,
        (∀ t ∈ T, t < j + n ∧ first ≤ (S t).seq ∧ (S t).seq < first + 20 ∧
          ∃ c, ev t = .planner (.cloud c) ∧ MeasuredLandable (S (t + 1)).planner c x y) ∧
        ∀ beta thr, 0 ≤ beta → beta ≤ 1 → 0 ≤ thr →
          (∀ m, j ≤ m → m ≤ j + n → (S m).node.gen.beta = beta ∧ (S m).node.gen.can_land_thr = thr) → thr < 1 - beta ^ T.card := by
  obtain ⟨i, j, n, hi, hjn, g1, g2, g3, a, b, g4⟩ := C47_landing_evidence (node_run r) (fun m hm => node_flags r hs m hm) k hk hl
  refine ⟨i, j, n, (S j).node.gen.start_seq, hi, hjn, g1, g2, g3, a, b, fun x y hxy => ?_⟩
  obtain ⟨T, h1, h2⟩ := sightings_measured r hs j n (by omega) g1 x y
  refine ⟨T, h1, fun beta thr b0 b1 t0 hst => ?_⟩
  rw [h2]
  exact (g4 x y hxy).2 beta thr b0 b1 t0 hst

/-- **C106, nothing undefined on the way.** In every run, from every point on, the planner can process every further cloud, pose and sane
configuration, and the node can take in every grid message that is on its way. -/
theorem C106_never_undefined {sqrt : K → K} {ny : V3 (Option K) → V3 (Option K) → Option K} {N : ℕ} {S : ℕ → LandSys K} {ev : ℕ → LandEvent K}
    (r : LandRun sqrt ny N S ev) (hs : ∀ k < N, (ev k).Sane) (k : ℕ) (hk : k ≤ N) (e : LandEvent K) (he : e.Sane)
    (hn : ∀ v, e ≠ .node v) : ∃ s', landStep sqrt ny (S k) e = some s' := by
  cases e with
  | planner e =>
    obtain ⟨q, hq, _⟩ := inv_step (plan_side r hs k hk).inv e he
    exact ⟨_, by unfold landStep; dsimp only; rw [hq]; rfl⟩
  | lose => exact ⟨_, rfl⟩
  | node v => exact absurd rfl (hn v)
  | deliver =>
    unfold landStep
    dsimp only
    cases hw : (S k).wire with
    | nil => exact ⟨_, rfl⟩
    | cons m rest =>
      obtain ⟨p, b1, b2, _⟩ := (wire_side r hs k hk).backed m (by rw [hw]; exact List.mem_cons_self)
      obtain ⟨v, hv, _⟩ := C70_grid_round_trip sqrt p m.seq b1 (S k).node (node_side r hs k hk).sized
      rw [← b2] at hv
      exact ⟨{ S k with wire := rest, node := v }, by show (gridCallback (S k).node m).map _ = _; rw [hv]; rfl⟩

/-! ## A run -/

/-- The run of a list of events. -/
theorem run_of_list (sqrt : K → K) (ny : V3 (Option K) → V3 (Option K) → Option K) (es : List (LandEvent K)) (s : LandSys K)
    (h : loopM (landStep sqrt ny) landInit es = some s) :
    ∃ S : ℕ → LandSys K, LandRun sqrt ny es.length S (fun k => es.getD k .lose) ∧ S es.length = s := by
  have main : ∀ (es : List (LandEvent K)) (s0 s : LandSys K), loopM (landStep sqrt ny) s0 es = some s →
      ∃ S : ℕ → LandSys K, S 0 = s0 ∧ (∀ k < es.length, landStep sqrt ny (S k) (es.getD k .lose) = some (S (k + 1))) ∧ S es.length = s := by
    intro es
    induction es with
    | nil => intro s0 s h; cases h; exact ⟨fun _ => s0, rfl, fun k hk => absurd hk (by simp), rfl⟩
    | cons e es ih =>
      intro s0 s h
      unfold loopM at h
      obtain ⟨s1, h1, h2⟩ := Option.bind_eq_some_iff.mp h
      obtain ⟨S, a, b, c⟩ := ih s1 s h2
      refine ⟨fun k => match k with | 0 => s0 | k + 1 => S k, rfl, fun k hk => ?_, c⟩
      cases k with
      | zero => dsimp only; rw [a]; exact h1
      | succ k =>
        rw [List.length_cons] at hk
        exact b k (by omega)
  obtain ⟨S, a, b, c⟩ := main es landInit s h
  exact ⟨S, ⟨a, b⟩, c⟩

/-- Flat ground: one point at height 0 in each cell of a `3 × 3` grid around the origin. -/
def flatGround : List (CloudPoint ℚ) :=
  (indices 3 3).map fun ij => ⟨some ((ij.1 : ℚ) - 1), some ((ij.2 : ℚ) - 1), some 0⟩

/-- A landing from clouds: configuration, the vehicle 4 m above the ground, the order to land; then cloud after cloud, with each grid
delivered and one iteration per grid. -/
def flatLanding (rounds : ℕ) : List (LandEvent ℚ) :=
  [.planner (.reconfigure 1 (1/10) (1/10) 3 1 (1/2) 0 70 0), .planner (.pose ⟨0, 0, 4⟩), .node (.reconfigure (9/10) (4/10) 4 1 2 1),
   .node (.position ⟨some 0, some 0, some 4⟩ (some 0)),
   .node (.trajectory ⟨true, true, ⟨some 0, some 0, some 4⟩, nan3, ⟨some 0, some 0, some 0⟩, none, none, 21⟩)] ++
  (List.range rounds).flatMap fun _ => [.planner (.cloud flatGround), .deliver, .node .iterate]

/-- The theorems apply: this run ends with the landing. -/
example : (loopM (landStep (fun v => v) fun _ _ => none) (landInit : LandSys ℚ) (flatLanding 25)).map (fun s => (s.seq, s.node.gen.state)) = some (25, .LAND) ∧
    ∀ e ∈ flatLanding 25, e.Sane := by
  refine ⟨by decide +kernel, fun e he => ?_⟩
  unfold flatLanding at he
  rcases List.mem_append.mp he with he | he
  · simp only [List.mem_cons, List.not_mem_nil, or_false] at he
    rcases he with rfl | rfl | rfl | rfl | rfl
    · exact ⟨by norm_num, by norm_num, by norm_num, by norm_num⟩
    all_goals trivial
  · obtain ⟨k, _, he⟩ := List.mem_flatMap.mp he
    simp only [List.mem_cons, List.not_mem_nil, or_false] at he
    rcases he with rfl | rfl | rfl <;> trivial

/-- **C106 (finding).** The evidence may be old: here the first sixteen clouds show flat ground and then eight empty clouds follow - the
planner reports no cell landable any more (nor in the last seven messages) - and the vehicle nevertheless sets out to land. -/
theorem C106_blind_landing_witness :
    (loopM (landStep (fun v => v) fun _ _ => none) (landInit : LandSys ℚ)
      (flatLanding 16 ++ (List.range 8).flatMap fun _ => [.planner (.cloud []), .deliver, .node .iterate])).map
        (fun s => (s.node.gen.state, (indices 3 3).map fun ij => (s.planner.grid.land ij.1 ij.2, s.node.gen.grid.land ij.1 ij.2))) =
      some (.GOTO_LAND, List.replicate 9 (0, 0)) := by decide +kernel

end Landing
end Avoidance
