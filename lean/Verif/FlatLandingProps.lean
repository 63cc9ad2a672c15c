import Mathlib.Tactic.Linarith
import Mathlib.Tactic.Ring
import Mathlib.Tactic.FieldSimp
import Mathlib.Tactic.Positivity
import Mathlib.Tactic.GCongr
import Mathlib.Algebra.Order.Archimedean.Basic
import Verif.LandingSystemProps
import Verif.SlpProgress
import Verif.TouchdownProps
import Mathlib.Data.List.GetD
import Mathlib.Tactic.IntervalCases

/-!
# On flat ground the vehicle lands (C109)
-/

namespace Avoidance
namespace Landing

set_option linter.unusedSectionVars false

variable {K : Type*} [Field K] [LinearOrder K] [IsStrictOrderedRing K] [FloorRing K]

/-! ## Specification -/

/-- How far from the middle cell the cells matter for a patch of radius `s`: the patch and the lines over which the verdicts are smoothed. -/
def reach (q : Planner K) (s : ℕ) : ℕ := s + q.n_lines_padding.toNat

/-- The configuration lets flat ground be found landable: everything that matters is inside the grid, and the limits on the number of
neighbours can be met by a neighbourhood that is flat. -/
structure CanJudge (q : Planner K) (s : ℕ) : Prop where
  inside : 2 * reach q s + 1 ≤ q.grid.n
  uneven : 0 < q.n_lines_padding → 1 ≤ q.max_n_mean_diff_cells
  enough : 0 < q.n_lines_padding → q.min_n_land_cells < (2 * q.n_lines_padding + 1) ^ 2
  std : 0 ≤ q.std_dev_thr

/-- The cloud shows flat ground at height `g` (up to `ε`) below the vehicle at `pos`: every cell that matters, in the grid around `pos`, has enough points,
at least one, and all of them have this height. -/
def ShowsFlat (q : Planner K) (pos : V3 K) (s : ℕ) (g ε : K) (c : List (CloudPoint K)) : Prop :=
  ∀ a b, Central q.grid.n (reach q s) a b →
    0 < ((q.grid.setFilterLimits pos.x pos.y).heights c a b).length ∧
    q.n_points_thr ≤ ((q.grid.setFilterLimits pos.x pos.y).heights c a b).length ∧
    ∀ z ∈ (q.grid.setFilterLimits pos.x pos.y).heights c a b, |z - g| ≤ ε

/-- The filtered heights that matter are within `d` of `g`, the filtered variances at most `v`. -/
def Near (q : Planner K) (s : ℕ) (g d v : K) : Prop :=
  ∀ a b, Central q.grid.n (reach q s) a b → |q.grid.mean a b - g| ≤ d ∧ q.grid.variance a b ≤ v

/-- Round `k` of the landing: the vehicle's pose reaches the planner, then the cloud; the pose reaches the waypoint generator, then the grid; one iteration. -/
def flatRound (at_ : ℕ → V3 K) (cl : ℕ → List (CloudPoint K)) (p : ℕ → V3 (Option K)) (yaw : ℕ → Option K) (k : ℕ) : List (LandEvent K) :=
  [.planner (.pose (at_ k)), .planner (.cloud (cl k)), .node (.position (p k) (yaw k)), .deliver, .node .iterate]

/-! ## Statistics of flat ground -/

theorem sum_near (g ε : K) (l : List K) (h : ∀ z ∈ l, |z - g| ≤ ε) : |l.sum - l.length * g| ≤ l.length * ε := by
  induction l with
  | nil => simp
  | cons x l ih =>
      have h1 := h x List.mem_cons_self
      have h2 := ih (fun z hz => h z (List.mem_cons_of_mem _ hz))
      rw [List.sum_cons, List.length_cons]
      push_cast
      have := abs_add_le (x - g) (l.sum - l.length * g)
      rw [show x - g + (l.sum - l.length * g) = x + l.sum - ((l.length : K) + 1) * g by ring] at this
      linarith

theorem avg_near (g ε : K) (l : List K) (hl : 0 < l.length) (h : ∀ z ∈ l, |z - g| ≤ ε) : |avg l - g| ≤ ε := by
  have hp : (0 : K) < l.length := by exact_mod_cast hl
  have h1 := sum_near g ε l h
  unfold avg
  rw [show l.sum / (l.length : K) - g = (l.sum - l.length * g) / l.length by field_simp, abs_div, abs_of_pos hp, div_le_iff₀ hp]
  rw [mul_comm ε]
  exact h1

theorem sum_squares (g a : K) (l : List K) :
    (l.map fun z => (z - a) ^ 2).sum = (l.map fun z => (z - g) ^ 2).sum - 2 * (a - g) * (l.sum - l.length * g) + l.length * (a - g) ^ 2 := by
  induction l with
  | nil => simp
  | cons x l ih =>
      rw [List.map_cons, List.sum_cons, ih, List.map_cons, List.sum_cons, List.sum_cons, List.length_cons]
      push_cast
      ring

theorem popVar_near (g ε : K) (l : List K) (hl : 0 < l.length) (h : ∀ z ∈ l, |z - g| ≤ ε) : popVar l ≤ ε ^ 2 := by
  have hp : (0 : K) < l.length := by exact_mod_cast hl
  have h1 : (l.map fun z => (z - g) ^ 2).sum ≤ l.length * ε ^ 2 := by
    clear hl hp
    induction l with
    | nil => simp
    | cons x l ih =>
        have h1 := h x List.mem_cons_self
        have h2 := ih (fun z hz => h z (List.mem_cons_of_mem _ hz))
        have h3 : (x - g) ^ 2 ≤ ε ^ 2 := sq_le_sq' (by linarith [(abs_le.mp h1).1]) (abs_le.mp h1).2
        rw [List.map_cons, List.sum_cons, List.length_cons]
        push_cast
        linarith
  unfold popVar
  rw [div_le_iff₀ hp, sum_squares g (avg l) l]
  have h2 : l.sum - l.length * g = l.length * (avg l - g) := by unfold avg; field_simp
  rw [h2]
  nlinarith [mul_nonneg hp.le (sq_nonneg (avg l - g))]

/-! ## One cloud -/

theorem Central.mono {n s s' : ℕ} {i j : ℤ} (h : Central n s i j) (hs : s ≤ s') : Central n s' i j :=
  ⟨h.1.trans (by exact_mod_cast hs), h.2.trans (by exact_mod_cast hs)⟩

/-- The verdicts of a run are those of the filtered grid. -/
theorem run_verdicts {q q' : Planner K} (hu : q.size_update = false) (c : List (CloudPoint K)) (hr : run q (.cloud c) = some q') :
    (∀ x y, q'.grid.land x y = if q'.n_lines_padding > 0 then smoothedLand q' q'.grid x y else cellLand q' q'.grid x y) ∧
    q'.n_lines_padding = q.n_lines_padding ∧ q'.n_points_thr = q.n_points_thr ∧ q'.std_dev_thr = q.std_dev_thr ∧ q'.mean_diff_thr = q.mean_diff_thr ∧
    q'.max_n_mean_diff_cells = q.max_n_mean_diff_cells ∧ q'.min_n_land_cells = q.min_n_land_cells := by
  have ea : applySizeUpdate q = q := by
    unfold applySizeUpdate
    rw [hu, if_neg (by simp)]
  unfold run at hr
  dsimp only at hr
  rw [ea] at hr
  unfold processPointcloud at hr
  dsimp only at hr
  obtain ⟨w, hw, hr⟩ := Option.bind_eq_some_iff.mp hr
  obtain ⟨g', _, rfl⟩ := Option.map_eq_some_iff.mp hw
  obtain ⟨g2, _, rfl⟩ := Option.map_eq_some_iff.mp hr
  refine ⟨fun x y => ?_, rfl, rfl, rfl, rfl, rfl, rfl⟩
  rw [isLandingPossible_grid]
  rfl

theorem verdict_flat (q : Planner K) (s : ℕ) (g d v : K) (hj : CanJudge q s) (hv : ∀ i j, 0 ≤ q.grid.variance i j)
    (hn : Near q s g d v) (hd : 2 * d ≤ q.mean_diff_thr) (hvar : v ≤ q.std_dev_thr ^ 2)
    (hc : ∀ a b, Central q.grid.n (reach q s) a b → q.n_points_thr ≤ q.grid.counter a b)
    (hland : ∀ x y, q.grid.land x y = if q.n_lines_padding > 0 then smoothedLand q q.grid x y else cellLand q q.grid x y)
    (x y : ℤ) (hxy : Central q.grid.n s x y) : q.grid.land x y = 1 := by
  have hflat : ∀ a b, Central q.grid.n (reach q s) a b → cellLand q q.grid a b = 1 := by
    intro a b hab
    rw [cellLand_flat q a b (hv a b)]
    exact ⟨hc a b hab, hj.std, (hn a b hab).2.trans hvar⟩
  have hsub : Central q.grid.n (reach q s) x y := by
    exact hxy.mono (Nat.le_add_right _ _)
  rw [hland]
  by_cases hp : q.n_lines_padding > 0
  · rw [if_pos hp, smoothedLand_eq q q.grid x y (central_inGrid hj.inside hsub)]
    have hblock : ∀ e ∈ block q.n_lines_padding x y, Central q.grid.n (reach q s) e.1 e.2 := by
      intro e he
      unfold block at he
      rw [Finset.mem_product, Finset.mem_Icc, Finset.mem_Icc] at he
      have h1 := abs_le.mp hxy.1
      have h2 := abs_le.mp hxy.2
      have h3 : ((reach q s : ℕ) : ℤ) = s + q.n_lines_padding := by unfold reach; push_cast; omega
      unfold Central
      rw [h3, abs_le, abs_le]
      omega
    have e1 : (block q.n_lines_padding x y).filter (fun c => |q.grid.mean x y - heightAt q.grid c.1 c.2| > q.mean_diff_thr) = ∅ := by
      rw [Finset.filter_eq_empty_iff]
      intro e he
      have hb := hblock e he
      unfold heightAt
      rw [if_pos (central_inGrid hj.inside hb), not_lt]
      have h1 := (hn _ _ hb).1
      have h2 := (hn _ _ hsub).1
      have := abs_add_le (q.grid.mean x y - g) (-(q.grid.mean e.1 e.2 - g))
      rw [abs_neg, show q.grid.mean x y - g + -(q.grid.mean e.1 e.2 - g) = q.grid.mean x y - q.grid.mean e.1 e.2 by ring] at this
      linarith
    have e2 : (block q.n_lines_padding x y).filter (fun c => InGrid q.grid.n c.1 c.2 ∧ cellLand q q.grid c.1 c.2 = 1) = block q.n_lines_padding x y := by
      rw [Finset.filter_eq_self]
      intro e he
      exact ⟨central_inGrid hj.inside (hblock e he), hflat _ _ (hblock e he)⟩
    rw [e1, e2, card_block]
    have h1 := hj.uneven hp
    have h2 := hj.enough hp
    rw [if_pos]
    refine ⟨h1, by simp; omega, ?_⟩
    have h3 : (((2 * q.n_lines_padding + 1).toNat : ℕ) : ℤ) = 2 * q.n_lines_padding + 1 := Int.toNat_of_nonneg (by omega)
    push_cast
    rw [h3, ← sq]
    exact h2
  · rw [if_neg hp]
    exact hflat x y hsub

/-- What stays the same while only poses and clouds arrive. -/
structure SameSetup (q q' : Planner K) : Prop where
  update : q'.size_update = q.size_update
  alpha : q'.alpha = q.alpha
  n : q'.grid.n = q.grid.n
  gs : q'.grid.grid_size = q.grid.grid_size
  cs : q'.grid.cell_size = q.grid.cell_size
  pad : q'.n_lines_padding = q.n_lines_padding
  pts : q'.n_points_thr = q.n_points_thr
  std : q'.std_dev_thr = q.std_dev_thr
  diff : q'.mean_diff_thr = q.mean_diff_thr
  maxn : q'.max_n_mean_diff_cells = q.max_n_mean_diff_cells
  minn : q'.min_n_land_cells = q.min_n_land_cells

theorem SameSetup.rfl' (q : Planner K) : SameSetup q q := ⟨rfl, rfl, rfl, rfl, rfl, rfl, rfl, rfl, rfl, rfl, rfl⟩

theorem SameSetup.trans {a b c : Planner K} (h : SameSetup a b) (h' : SameSetup b c) : SameSetup a c :=
  ⟨h'.1.trans h.1, h'.2.trans h.2, h'.3.trans h.3, h'.4.trans h.4, h'.5.trans h.5, h'.6.trans h.6, h'.7.trans h.7, h'.8.trans h.8, h'.9.trans h.9,
    h'.10.trans h.10, h'.11.trans h.11⟩

theorem SameSetup.reach {q q' : Planner K} (h : SameSetup q q') (s : ℕ) : reach q' s = reach q s := by unfold Landing.reach; rw [h.pad]

theorem SameSetup.judge {q q' : Planner K} (h : SameSetup q q') {s : ℕ} (hj : CanJudge q s) : CanJudge q' s :=
  ⟨by rw [h.reach, h.n]; exact hj.inside, by rw [h.pad, h.maxn]; exact hj.uneven, by rw [h.pad, h.minn]; exact hj.enough, by rw [h.std]; exact hj.std⟩

theorem SameSetup.shows {q q' : Planner K} (h : SameSetup q q') {pos : V3 K} {s : ℕ} {g ε : K} {c : List (CloudPoint K)}
    (hf : ShowsFlat q pos s g ε c) : ShowsFlat q' pos s g ε c := by
  intro a b hab
  rw [h.n, h.reach] at hab
  rw [heights_congr q'.grid q.grid h.gs h.cs, h.pts]
  exact hf a b hab

/-- **C109, one cloud.** A cloud that shows flat ground brings the filtered heights closer to the ground by the factor `α`, and the variances to `ε²`; the middle of the
grid is found landable as soon as the filtered values allow it. -/
theorem flat_cloud {q : Planner K} (h : PlannerInv q) (hu : q.size_update = false) {s : ℕ} {g ε : K} (hj : CanJudge q s) {c : List (CloudPoint K)}
    (hf : ShowsFlat q q.pos s g ε c) {x v : K} (hn : Near q s g (ε + x) (ε ^ 2 + v)) :
    ∃ q', run q (.cloud c) = some q' ∧ PlannerInv q' ∧ SameSetup q q' ∧ q'.previous = q.grid ∧ q'.pos = q.pos ∧
      Near q' s g (ε + q.alpha * x) (ε ^ 2 + q.alpha * v) ∧
      (2 * (ε + q.alpha * x) ≤ q.mean_diff_thr → ε ^ 2 + q.alpha * v ≤ q.std_dev_thr ^ 2 → ∀ i j, Central q.grid.n s i j → q'.grid.land i j = 1) := by
  obtain ⟨q', e, hprev, hnn, st⟩ := C46_run q h hu c
  obtain ⟨q2, e2, hinv⟩ := inv_run h c
  rw [e] at e2
  obtain rfl := Option.some.inj e2
  obtain ⟨f1, f2, f3, f4, f5⟩ := run_frame h hu c e
  obtain ⟨l0, l1, l2, l3, l4, l5, l6⟩ := run_verdicts hu c e
  have hsame : SameSetup q q' := ⟨by rw [f1, hu], f3, hnn, f4, f5, l1, l2, l3, l4, l5, l6⟩
  have hhs : ∀ a b, (q.previous.setFilterLimits q.pos.x q.pos.y).heights c a b = (q.grid.setFilterLimits q.pos.x q.pos.y).heights c a b :=
    fun a b => heights_congr _ _ h.gs.symm h.cs.symm _ _ _ _ _
  have hnear : Near q' s g (ε + q.alpha * x) (ε ^ 2 + q.alpha * v) := by
    intro a b hab
    rw [hnn, hsame.reach] at hab
    obtain ⟨h1, h2, h3⟩ := hf a b hab
    obtain ⟨n1, n2⟩ := hn a b hab
    obtain ⟨-, s2, s3⟩ := st a b
    rw [hhs] at s2 s3
    have a1 := avg_near g ε _ h1 h3
    have a2 := popVar_near g ε _ h1 h3
    have ha0 := h.a0
    have ha1 : 0 ≤ 1 - q.alpha := sub_nonneg.mpr h.a1
    constructor
    · rw [s2]
      generalize avg ((q.grid.setFilterLimits q.pos.x q.pos.y).heights c a b) = m at a1 ⊢
      rw [show q.alpha * q.grid.mean a b + (1 - q.alpha) * m - g = q.alpha * (q.grid.mean a b - g) + (1 - q.alpha) * (m - g) by ring]
      refine (abs_add_le _ _).trans ?_
      rw [abs_mul, abs_mul, abs_of_nonneg ha0, abs_of_nonneg ha1]
      have b1 := mul_le_mul_of_nonneg_left n1 ha0
      have b2 := mul_le_mul_of_nonneg_left a1 ha1
      linarith
    · rw [s3]
      have b1 := mul_le_mul_of_nonneg_left n2 ha0
      have b2 := mul_le_mul_of_nonneg_left a2 ha1
      linarith
  refine ⟨q', e, hinv, hsame, hprev, f2, hnear, fun h1 h2 i j hij => ?_⟩
  refine verdict_flat q' s g _ _ (hsame.judge hj) hinv.var hnear (by rw [l4]; exact h1) (by rw [l3]; exact h2) ?_ l0 i j (by rw [hnn]; exact hij)
  intro a b hab
  rw [hnn, hsame.reach] at hab
  rw [(st a b).1, hhs, l2]
  exact_mod_cast (hf a b hab).2.1

/-! ## Before the landing -/

/-- How the planner stands after `m` flat clouds. -/
structure Settled (q0 q : Planner K) (s : ℕ) (g ε x v : K) (m : ℕ) : Prop where
  inv : PlannerInv q
  same : SameSetup q0 q
  near : Near q s g (ε + q0.alpha ^ m * x) (ε ^ 2 + q0.alpha ^ m * v)
  land : 1 ≤ m → 2 * (ε + q0.alpha ^ m * x) ≤ q0.mean_diff_thr → ε ^ 2 + q0.alpha ^ m * v ≤ q0.std_dev_thr ^ 2 →
    ∀ i j, Central q0.grid.n s i j → q.grid.land i j = 1

theorem settled_cloud {q0 q : Planner K} {s : ℕ} {g ε x v : K} {m : ℕ} (hu : q0.size_update = false) (hj : CanJudge q0 s) (h : Settled q0 q s g ε x v m)
    {c : List (CloudPoint K)} (hf : ShowsFlat q0 q.pos s g ε c) :
    ∃ q', run q (.cloud c) = some q' ∧ Settled q0 q' s g ε x v (m + 1) ∧ q'.previous = q.grid := by
  obtain ⟨q', e, h1, h2, h3, -, h5, h6⟩ := flat_cloud h.inv (by rw [h.same.update]; exact hu) (h.same.judge hj) (h.same.shows hf) h.near
  have ea : ∀ y : K, q.alpha * (q0.alpha ^ m * y) = q0.alpha ^ (m + 1) * y := by intro y; rw [h.same.alpha, pow_succ]; ring
  rw [ea, ea] at h5 h6
  rw [h.same.diff, h.same.std, h.same.n] at h6
  exact ⟨q', e, ⟨h1, h.same.trans h2, h5, fun _ => h6⟩, h3⟩

theorem settled_pose {q0 q : Planner K} {s : ℕ} {g ε x v : K} {m : ℕ} (h : Settled q0 q s g ε x v m) (p : V3 K) :
    Settled q0 { q with pos := p } s g ε x v m :=
  ⟨⟨h.inv.sized, h.inv.sized', h.inv.gs, h.inv.cs, h.inv.cfg_g, h.inv.cfg_c, h.inv.a0, h.inv.a1, h.inv.var, h.inv.var'⟩,
    ⟨h.same.update, h.same.alpha, h.same.n, h.same.gs, h.same.cs, h.same.pad, h.same.pts, h.same.std, h.same.diff, h.same.maxn, h.same.minn⟩, h.near, h.land⟩

theorem settled_run {sqrt : K → K} {ny : V3 (Option K) → V3 (Option K) → Option K} {N : ℕ} {S : ℕ → LandSys K} {ev : ℕ → LandEvent K}
    (r : LandRun sqrt ny N S ev) (hs : ∀ k < N, (ev k).Sane) (j : ℕ) (s : ℕ) (g ε x v : K)
    (hu : (S j).planner.size_update = false) (hj : CanJudge (S j).planner s) (hn : Near (S j).planner s g (ε + x) (ε ^ 2 + v))
    (hwarm : ∀ k, j ≤ k → k < N → ∀ e, ev k = .planner e →
      (∃ p, e = .pose p) ∨ ∃ c, e = .cloud c ∧ ShowsFlat (S j).planner (S k).planner.pos s g ε c) :
    ∀ k, j ≤ k → k ≤ N → ∃ m : ℕ, (S k).seq = (S j).seq + m ∧ Settled (S j).planner (S k).planner s g ε x v m := by
  intro k hjk
  induction k, hjk using Nat.le_induction with
  | base =>
      intro hk
      refine ⟨0, by simp, (plan_side r hs j hk).inv, SameSetup.rfl' _, by simpa using hn, fun h => absurd h (by omega)⟩
  | succ k hjk ih =>
      intro hk
      obtain ⟨m, h1, h2⟩ := ih (by omega)
      have hstep := r.step k (by omega)
      rcases land_cases sqrt ny _ _ _ hstep with ⟨c, hc, p, hp, e⟩ | ⟨p, e, -, ⟨e', he', hp⟩, hnc⟩ | ⟨-, m', rest, w, -, -, e⟩ | ⟨-, -, w, -, e⟩ | ⟨-, -, e1, e2, -⟩
      · rcases hwarm k hjk (by omega) _ hc with ⟨p', h⟩ | ⟨c', h, hf⟩
        · cases h
        · injection h with h
          subst h
          obtain ⟨q', g1, g2, -⟩ := settled_cloud hu hj h2 hf
          have : some p = some q' := hp.symm.trans g1
          obtain rfl := Option.some.inj this
          refine ⟨m + 1, ?_, ?_⟩
          · rw [e, h1]; push_cast; ring
          · rw [e]; exact g2
      · rcases hwarm k hjk (by omega) _ he' with ⟨p', h⟩ | ⟨c', h, -⟩
        · subst h
          obtain rfl := Option.some.inj hp
          refine ⟨m, by rw [e]; exact h1, ?_⟩
          rw [e]
          exact settled_pose h2 p'
        · subst h
          exact absurd he' (hnc c')
      · exact ⟨m, by rw [e]; exact h1, by rw [e]; exact h2⟩
      · exact ⟨m, by rw [e]; exact h1, by rw [e]; exact h2⟩
      · exact ⟨m, by rw [e2]; exact h1, by rw [e1]; exact h2⟩

/-! ## The landing -/

/-- The planner over the rounds. -/
def planAt (q : Planner K) (at_ : ℕ → V3 K) (cl : ℕ → List (CloudPoint K)) : ℕ → Planner K
  | 0 => q
  | k + 1 => (run { planAt q at_ cl k with pos := at_ k } (.cloud (cl k))).getD (planAt q at_ cl k)

theorem planAt_spec {q0 q : Planner K} {s : ℕ} {g ε x v : K} {m : ℕ} (hu : q0.size_update = false) (hj : CanJudge q0 s) (h : Settled q0 q s g ε x v m)
    {at_ : ℕ → V3 K} {cl : ℕ → List (CloudPoint K)} (hf : ∀ k < 25, ShowsFlat q0 (at_ k) s g ε (cl k)) :
    ∀ k < 25, run { planAt q at_ cl k with pos := at_ k } (.cloud (cl k)) = some (planAt q at_ cl (k + 1)) ∧
      (planAt q at_ cl (k + 1)).previous = (planAt q at_ cl k).grid ∧ Settled q0 (planAt q at_ cl k) s g ε x v (m + k) := by
  have key : ∀ k ≤ 25, Settled q0 (planAt q at_ cl k) s g ε x v (m + k) := by
    intro k
    induction k with
    | zero => intro _; exact h
    | succ k ih =>
        intro hk
        obtain ⟨q', e, h1, -⟩ := settled_cloud hu hj (settled_pose (ih (by omega)) (at_ k)) (hf k (by omega))
        have : planAt q at_ cl (k + 1) = q' := by
          show (run _ _).getD _ = q'
          rw [e]; rfl
        rw [this]
        exact h1
  intro k hk
  obtain ⟨q', e, -, h2⟩ := settled_cloud hu hj (settled_pose (key k (by omega)) (at_ k)) (hf k hk)
  have e3 : planAt q at_ cl (k + 1) = q' := by
    show (run _ _).getD _ = q'
    rw [e]; rfl
  rw [e3]
  exact ⟨e, h2, key k (by omega)⟩

/-- One round of both nodes is one round of the waypoint generator with the planner's new message. -/
theorem flat_round_step (sqrt : K → K) (ny : V3 (Option K) → V3 (Option K) → Option K) (at_ : ℕ → V3 K) (cl : ℕ → List (CloudPoint K)) (p : ℕ → V3 (Option K))
    (yaw : ℕ → Option K) (k : ℕ) (q q' : Planner K) (hq : run { q with pos := at_ k } (.cloud (cl k)) = some q') (seq : ℤ) (v v' : SlpNode K)
    (P : ℕ → Planner K) (hP : P k = q') (h : loopM (slpStep ny) v (landingRound sqrt p yaw P seq k) = some v') :
    loopM (landStep sqrt ny) ⟨q, seq + k, [], v⟩ (flatRound at_ cl p yaw k) = some ⟨q', seq + k + 1, [], v'⟩ := by
  unfold landingRound at h
  obtain ⟨v1, h1, h⟩ := Option.bind_eq_some_iff.mp h
  obtain ⟨v2, h2, h⟩ := Option.bind_eq_some_iff.mp h
  obtain ⟨v3, h3, h⟩ := Option.bind_eq_some_iff.mp h
  obtain rfl := Option.some.inj h
  have hrec : v2.grid_received = true := by
    obtain ⟨g1, -, e⟩ := Option.map_eq_some_iff.mp h2
    rw [← e]
  rw [hP] at h2
  unfold flatRound
  show (landStep sqrt ny ⟨q, seq + k, [], v⟩ (.planner (.pose (at_ k)))).bind _ = _
  have e1 : landStep sqrt ny ⟨q, seq + k, [], v⟩ (.planner (.pose (at_ k))) = some ⟨{ q with pos := at_ k }, seq + k, [], v⟩ := rfl
  rw [e1, Option.bind_some]
  show (landStep sqrt ny ⟨{ q with pos := at_ k }, seq + k, [], v⟩ (.planner (.cloud (cl k)))).bind _ = _
  have e2 : landStep sqrt ny ⟨{ q with pos := at_ k }, seq + k, [], v⟩ (.planner (.cloud (cl k))) =
      some ⟨q', seq + k + 1, [publishSerialGrid sqrt q' (seq + k)], v⟩ := by
    show (run ({ q with pos := at_ k } : Planner K) (.cloud (cl k))).map _ = _
    rw [hq]
    rfl
  rw [e2, Option.bind_some]
  show (landStep sqrt ny (⟨q', seq + k + 1, [publishSerialGrid sqrt q' (seq + k)], v⟩ : LandSys K) (.node (.position (p k) (yaw k)))).bind _ = _
  have e3 : landStep sqrt ny ⟨q', seq + k + 1, [publishSerialGrid sqrt q' (seq + k)], v⟩ (.node (.position (p k) (yaw k))) =
      some ⟨q', seq + k + 1, [publishSerialGrid sqrt q' (seq + k)], v1⟩ := by
    unfold landStep
    dsimp only
    rw [h1]
    rfl
  rw [e3, Option.bind_some]
  show (landStep sqrt ny (⟨q', seq + k + 1, [publishSerialGrid sqrt q' (seq + k)], v1⟩ : LandSys K) .deliver).bind _ = _
  have e4 : landStep sqrt ny ⟨q', seq + k + 1, [publishSerialGrid sqrt q' (seq + k)], v1⟩ .deliver = some ⟨q', seq + k + 1, [], v2⟩ := by
    unfold landStep
    dsimp only
    rw [h2]
    rfl
  rw [e4, Option.bind_some]
  show (landStep sqrt ny (⟨q', seq + k + 1, [], v2⟩ : LandSys K) (.node .iterate)).bind _ = _
  have e5 : landStep sqrt ny ⟨q', seq + k + 1, [], v2⟩ (.node .iterate) = some ⟨q', seq + k + 1, [], v3⟩ := by
    unfold landStep
    dsimp only
    rw [if_pos hrec, h3]
    rfl
  rw [e5]
  rfl

/-- **C109.** On flat ground the vehicle lands, and nothing undefined happens on the way. In any run of the two nodes, let `j` be a moment from which on the planner gets only
poses and clouds, and every cloud shows flat ground at height `g` up to `ε` (in every cell of the grid that matters for the patch, with enough points); at `j` the
filtered heights may still be off by `x` more and the filtered variances by `v` more. Let `m ≥ 1` clouds arrive until `N`, in any order with everything else that
happens to the two nodes, and let `αᵐ` be small enough for the thresholds. If then the order to land is in force and has not been decided on, no reset is
pending, the vehicle is within the acceptance radius, and 25 rounds follow (cloud, grid, iteration) in which the clouds go on showing the flat ground, while the
vehicle is in the range of the loiter height by more than what is left of the errors and stays (between the third and the last round) within half a metre, then the
node is landing after them. -/
theorem C109_flat_ground_lands {sqrt : K → K} {ny : V3 (Option K) → V3 (Option K) → Option K} {N : ℕ} {S : ℕ → LandSys K} {ev : ℕ → LandEvent K}
    (r : LandRun sqrt ny N S ev) (hs : ∀ k < N, (ev k).Sane) (g ε x v : K)
    -- the planner
    (j : ℕ) (hjN : j ≤ N) (hu : (S j).planner.size_update = false) (hj : CanJudge (S j).planner (S N).node.gen.smoothing_land_cell)
    (hn : Near (S j).planner (S N).node.gen.smoothing_land_cell g (ε + x) (ε ^ 2 + v))
    (hwarm : ∀ k, j ≤ k → k < N → ∀ e, ev k = .planner e →
      (∃ p, e = .pose p) ∨ ∃ c, e = .cloud c ∧ ShowsFlat (S j).planner (S k).planner.pos (S N).node.gen.smoothing_land_cell g ε c)
    (m : ℕ) (hm : 1 ≤ m) (hseq : (S N).seq = (S j).seq + m)
    (hdiff : 2 * (ε + (S j).planner.alpha ^ m * x) ≤ (S j).planner.mean_diff_thr)
    (hstd : ε ^ 2 + (S j).planner.alpha ^ m * v ≤ (S j).planner.std_dev_thr ^ 2) (hx : 0 ≤ x) (hv : 0 ≤ v)
    -- the waypoint generator
    (hwire : (S N).wire = []) (hstate : (S N).node.gen.state = .GOTO) (hreset : (S N).node.gen.trigger_reset = false)
    (hland : (S N).node.gen.is_land_waypoint = true) (hdec : (S N).node.gen.decision_taken = false)
    (hs1 : 1 ≤ (S N).node.gen.smoothing_land_cell)
    (ht0 : 0 ≤ (S N).node.gen.can_land_thr) (htb : (S N).node.gen.can_land_thr < 1 - (S N).node.gen.beta ^ 20)
    -- the rounds
    (at_ : ℕ → V3 K) (cl : ℕ → List (CloudPoint K)) (p : ℕ → V3 (Option K)) (yaw : ℕ → Option K)
    (hcl : ∀ k < 25, ShowsFlat (S j).planner (at_ k) (S N).node.gen.smoothing_land_cell g ε (cl k))
    (hgoal : Within (acceptanceRadius (S N).node.gen) (S N).node.gen.goal (p 0))
    (hheight : ∃ z, (p 1).z = some z ∧
      |(|z - g| - (S N).node.gen.loiter_height)| + (ε + (S j).planner.alpha ^ m * x) < (S N).node.gen.vertical_range_error)
    (hstay : Within (1 / 2) (p 2) (p 24)) :
    ∃ s, loopM (landStep sqrt ny) (S N) ((List.range 25).flatMap (flatRound at_ cl p yaw)) = some s ∧ s.node.gen.state = .LAND := by
  generalize hsm : (S N).node.gen.smoothing_land_cell = sm at *
  obtain ⟨m', hm', hset⟩ := settled_run r hs j sm g ε x v hu hj hn hwarm N hjN le_rfl
  obtain rfl : m' = m := by
    rw [hseq] at hm'
    omega
  set q0 := (S j).planner with hq0
  have ha0 : 0 ≤ q0.alpha := (plan_side r hs j hjN).inv.a0
  have ha1 : q0.alpha ≤ 1 := (plan_side r hs j hjN).inv.a1
  have hspec := planAt_spec hu hj hset hcl
  have hpow : ∀ k, q0.alpha ^ (m' + k) ≤ q0.alpha ^ m' := fun k => pow_le_pow_of_le_one ha0 ha1 (Nat.le_add_right _ _)
  have hx' : ∀ k, ε + q0.alpha ^ (m' + k) * x ≤ ε + q0.alpha ^ m' * x := fun k => by
    have := mul_le_mul_of_nonneg_right (hpow k) hx; linarith
  have hv' : ∀ k, ε ^ 2 + q0.alpha ^ (m' + k) * v ≤ ε ^ 2 + q0.alpha ^ m' * v := fun k => by
    have := mul_le_mul_of_nonneg_right (hpow k) hv; linarith
  have hin : 2 * sm + 1 ≤ q0.grid.n := by
    have := hj.inside
    unfold reach at this
    omega
  have hflat : ∀ k < 25, FlatLandable (planAt (S N).planner at_ cl (k + 1)) q0.grid.n sm g (ε + q0.alpha ^ m' * x) := by
    intro k hk
    obtain ⟨h1, h2, h3⟩ := hspec k hk
    unfold FlatLandable
    rw [h2]
    refine ⟨h3.inv.sized, h3.same.n, fun i j' hij => ⟨?_, ?_⟩⟩
    · refine ((h3.near i j' ?_).1).trans (hx' k)
      rw [h3.same.n, h3.same.reach]
      exact hij.mono (Nat.le_add_right _ _)
    · exact h3.land (by omega) (by have := hx' k; linarith) (by have := hv' k; linarith) i j' hij
  obtain ⟨hmask, hres⟩ := run_ok (node_run r) N le_rfl
  obtain ⟨cs, -, hexp, -⟩ := C69_spiral (node_run r)
  obtain ⟨w, hw, hwl⟩ := C82_lands ny sqrt (S N).node q0.grid.n g (ε + q0.alpha ^ m' * x) p yaw (fun k => planAt (S N).planner at_ cl (k + 1)) (S N).seq
    hmask hres ⟨cs N, hexp N le_rfl⟩ (node_side r hs N le_rfl).sized (by rw [hsm]; exact hs1) (by rw [hsm]; exact hin) ht0 htb hstate hreset hland hdec
    (by rw [hsm]; exact hflat) hgoal hheight hstay
  -- both nodes follow
  have key : ∀ k ≤ 25, ∀ w', loopM (slpStep ny) (S N).node ((List.range k).flatMap (landingRound sqrt p yaw (fun k => planAt (S N).planner at_ cl (k + 1)) (S N).seq)) = some w' →
      loopM (landStep sqrt ny) (S N) ((List.range k).flatMap (flatRound at_ cl p yaw)) = some ⟨planAt (S N).planner at_ cl k, (S N).seq + k, [], w'⟩ := by
    intro k
    induction k with
    | zero =>
        intro _ w' h
        obtain rfl := Option.some.inj h
        show some (S N) = some ⟨(S N).planner, (S N).seq + ((0 : ℕ) : ℤ), [], (S N).node⟩
        rw [← hwire]
        simp
    | succ k ih =>
        intro hk w' h
        rw [List.range_succ, List.flatMap_append, loopM_append] at h
        obtain ⟨w1, hw1, h⟩ := Option.bind_eq_some_iff.mp h
        rw [List.flatMap_cons, List.flatMap_nil, List.append_nil] at h
        rw [List.range_succ, List.flatMap_append, loopM_append, ih (by omega) w1 hw1, Option.bind_some, List.flatMap_cons, List.flatMap_nil, List.append_nil,
          flat_round_step sqrt ny at_ cl p yaw k _ _ (hspec k (by omega)).1 (S N).seq w1 w' _ rfl h]
        push_cast
        rw [add_assoc]
  exact ⟨_, key 25 le_rfl w hw, hwl⟩

/-- **C109, enough clouds.** If the ground is flatter than the thresholds ask for and the filter forgets (`α < 1`), a number of clouds is enough, whatever the filter held before. -/
theorem C109_enough_clouds (alpha ε x v std diff : K) (h0 : 0 ≤ alpha) (h1 : alpha < 1) (he : 0 ≤ ε) (hs : ε < std) (hd : 2 * ε < diff) (hx : 0 ≤ x) (hv : 0 ≤ v) :
    ∃ M : ℕ, ∀ m, M ≤ m → 2 * (ε + alpha ^ m * x) ≤ diff ∧ ε ^ 2 + alpha ^ m * v ≤ std ^ 2 := by
  have arch : Archimedean K := inferInstance
  have hgap : 0 < std ^ 2 - ε ^ 2 := by nlinarith
  obtain ⟨M, hM⟩ := exists_pow_lt_of_lt_one (show (0 : K) < min ((diff - 2 * ε) / (2 * (x + 1))) ((std ^ 2 - ε ^ 2) / (v + 1)) from
    lt_min (div_pos (by linarith) (by linarith)) (div_pos hgap (by linarith))) h1
  refine ⟨M, fun m hm => ?_⟩
  have hp0 : 0 ≤ alpha ^ m := pow_nonneg h0 m
  have hpm : alpha ^ m < min ((diff - 2 * ε) / (2 * (x + 1))) ((std ^ 2 - ε ^ 2) / (v + 1)) := lt_of_le_of_lt (pow_le_pow_of_le_one h0 h1.le hm) hM
  have e1 := (lt_div_iff₀ (by linarith : (0 : K) < 2 * (x + 1))).mp (lt_of_lt_of_le hpm (min_le_left _ _))
  have e2 := (lt_div_iff₀ (by linarith : (0 : K) < v + 1)).mp (lt_of_lt_of_le hpm (min_le_right _ _))
  constructor <;> nlinarith

/-! ## The theorem applies -/

theorem central_nat {n s : ℕ} (h : 2 * s + 1 ≤ n) {a b : ℤ} (hc : Central n s a b) : ∃ i < n, ∃ j < n, a = (i : ℤ) ∧ b = (j : ℤ) := by
  obtain ⟨h1, h2, h3, h4⟩ := central_inGrid h hc
  exact ⟨a.toNat, by omega, b.toNat, by omega, by omega, by omega⟩

/-- Ground at height 1: a point in the middle of each cell of a `5 × 5` grid with cells of 2 m around `(x, y)`. -/
def raisedGround (x y : ℚ) : List (CloudPoint ℚ) :=
  (indices 5 5).map fun ij => ⟨some (x + 2 * ((ij.1 : ℚ) - 2)), some (y + 2 * ((ij.2 : ℚ) - 2)), some 1⟩

/-- A run before the landing: configuration (with smoothing over one line), the vehicle above the origin, an empty cloud, the order to land,
one cloud; the grids are lost. -/
def flatWarmup : List (LandEvent ℚ) :=
  [.planner (.reconfigure 1 (1/10) (3/10) 10 2 (1/10) 1 70 8), .planner (.pose ⟨0, 0, 5⟩), .node (.reconfigure (9/10) (4/10) 4 1 2 1),
   .planner (.cloud []), .lose, .node (.position ⟨some 0, some 0, some 5⟩ (some 0)), .node (.trajectory landOrder), .planner (.cloud (raisedGround 0 0)), .lose]

/-- All hypotheses are met by a run: the filter holds height 0 while the ground is at height 1; one cloud is enough with `α = 1/10`. The vehicle drifts during the rounds. -/
example : ∃ S : ℕ → LandSys ℚ, ∃ ev : ℕ → LandEvent ℚ, LandRun (fun v => v) (fun _ _ => none) 9 S ev ∧ (∀ k < 9, (ev k).Sane) ∧
    (S 4).planner.size_update = false ∧ CanJudge (S 4).planner (S 9).node.gen.smoothing_land_cell ∧
    Near (S 4).planner (S 9).node.gen.smoothing_land_cell 1 (0 + 1) (0 ^ 2 + 0) ∧
    (∀ k, 4 ≤ k → k < 9 → ∀ e, ev k = .planner e →
      (∃ p, e = .pose p) ∨ ∃ c, e = .cloud c ∧ ShowsFlat (S 4).planner (S k).planner.pos (S 9).node.gen.smoothing_land_cell 1 0 c) ∧
    (S 9).seq = (S 4).seq + 1 ∧ 2 * (0 + (S 4).planner.alpha ^ 1 * 1) ≤ (S 4).planner.mean_diff_thr ∧
    0 ^ 2 + (S 4).planner.alpha ^ 1 * 0 ≤ (S 4).planner.std_dev_thr ^ 2 ∧ (S 9).wire = [] ∧ (S 9).node.gen.state = .GOTO ∧
    (S 9).node.gen.trigger_reset = false ∧ (S 9).node.gen.is_land_waypoint = true ∧ (S 9).node.gen.decision_taken = false ∧
    1 ≤ (S 9).node.gen.smoothing_land_cell ∧ 0 ≤ (S 9).node.gen.can_land_thr ∧ (S 9).node.gen.can_land_thr < 1 - (S 9).node.gen.beta ^ 20 ∧
    (∀ k : ℕ, k < 25 → ShowsFlat (S 4).planner ⟨(k : ℚ) / 100, 0, 5⟩ (S 9).node.gen.smoothing_land_cell 1 0 (raisedGround ((k : ℚ) / 100) 0)) ∧
    Within (acceptanceRadius (S 9).node.gen) (S 9).node.gen.goal ⟨some 0, some 0, some 5⟩ ∧
    |(|(5 : ℚ) - 1| - (S 9).node.gen.loiter_height)| + (0 + (S 4).planner.alpha ^ 1 * 1) < (S 9).node.gen.vertical_range_error := by
  have hscan : ∃ L ∈ landScan (fun v => v) (fun _ _ => none) (landInit : LandSys ℚ) flatWarmup,
      (((L.getD 4 landInit).planner.size_update = false ∧ (L.getD 4 landInit).planner.n_lines_padding = 1 ∧ (L.getD 4 landInit).planner.grid.n = 5 ∧
       (L.getD 4 landInit).planner.max_n_mean_diff_cells = 70 ∧ (L.getD 4 landInit).planner.min_n_land_cells = 8 ∧ (L.getD 4 landInit).planner.std_dev_thr = 1/10 ∧
       (L.getD 4 landInit).planner.alpha = 1/10 ∧ (L.getD 4 landInit).planner.mean_diff_thr = 3/10 ∧ (L.getD 4 landInit).planner.n_points_thr = 1 ∧
       (L.getD 4 landInit).planner.grid.grid_size = 10 ∧ (L.getD 4 landInit).planner.grid.cell_size = 2) ∧
       (∀ i < 5, ∀ j < 5, (L.getD 4 landInit).planner.grid.mean (i : ℕ) (j : ℕ) = 0 ∧ (L.getD 4 landInit).planner.grid.variance (i : ℕ) (j : ℕ) = 0)) ∧
      ((L.getD 9 landInit).seq = (L.getD 4 landInit).seq + 1 ∧ (L.getD 9 landInit).wire.length = 0 ∧ (L.getD 7 landInit).planner.pos.x = 0 ∧
       (L.getD 7 landInit).planner.pos.y = 0) ∧
      (L.getD 9 landInit).node.gen.state = .GOTO ∧ (L.getD 9 landInit).node.gen.trigger_reset = false ∧ (L.getD 9 landInit).node.gen.is_land_waypoint = true ∧
      (L.getD 9 landInit).node.gen.decision_taken = false ∧ (L.getD 9 landInit).node.gen.smoothing_land_cell = 1 ∧ (L.getD 9 landInit).node.gen.can_land_thr = 4/10 ∧
      (L.getD 9 landInit).node.gen.beta = 9/10 ∧ acceptanceRadius (L.getD 9 landInit).node.gen = 2 ∧ (L.getD 9 landInit).node.gen.goal.x = some 0 ∧
      (L.getD 9 landInit).node.gen.goal.y = some 0 ∧ (L.getD 9 landInit).node.gen.loiter_height = 4 ∧ (L.getD 9 landInit).node.gen.vertical_range_error = 1 := by
    decide +kernel
  obtain ⟨L, hL, ⟨⟨a1, a2, a3, a4, a5, a6, a7, a8, a9, a10, a11⟩, a12⟩, ⟨b1, b2, b3, b4⟩, c1, c2, c3, c4, c5, c6, c7, c8, c9, c10, c11, c12⟩ := hscan
  have hshow : ∀ pos : V3 ℚ, ∀ c, (∀ i < 5, ∀ j < 5,
      0 < (({ (Grid.new 10 2 : Grid ℚ) with n := 5 } : Grid ℚ).setFilterLimits pos.x pos.y |>.heights c (i : ℕ) (j : ℕ)).length ∧
      ∀ z ∈ (({ (Grid.new 10 2 : Grid ℚ) with n := 5 } : Grid ℚ).setFilterLimits pos.x pos.y).heights c (i : ℕ) (j : ℕ), z = 1) →
      ShowsFlat (L.getD 4 landInit).planner pos 1 1 0 c := by
    intro pos c h a b hab
    have hr : reach (L.getD 4 landInit).planner 1 = 2 := by unfold reach; rw [a2]; rfl
    rw [a3, hr] at hab
    obtain ⟨i, hi, j, hj, rfl, rfl⟩ := central_nat (by omega) hab
    rw [heights_congr (L.getD 4 landInit).planner.grid ({ (Grid.new 10 2 : Grid ℚ) with n := 5 } : Grid ℚ) a10 a11, a9]
    obtain ⟨h1, h2⟩ := h i hi j hj
    refine ⟨h1, by exact_mod_cast h1, fun z hz => ?_⟩
    rw [h2 z hz]; norm_num
  refine ⟨fun k => L.getD k landInit, fun k => flatWarmup.getD k .lose, run_of_scan _ _ flatWarmup L hL, ?_, a1, ?_, ?_, ?_, b1, ?_, ?_, ?_, c1, c2, c3, c4, ?_, ?_, ?_, ?_, ?_, ?_⟩
  · intro k hk
    have hall : ∀ e ∈ flatWarmup, e.Sane := by
      intro e he
      simp only [flatWarmup, List.mem_cons, List.not_mem_nil, or_false] at he
      rcases he with rfl | rfl | rfl | rfl | rfl | rfl | rfl | rfl | rfl
      · exact ⟨by norm_num, by norm_num, by norm_num, by norm_num⟩
      all_goals trivial
    show (flatWarmup.getD k .lose).Sane
    rw [List.getD_eq_getElem _ _ (show k < flatWarmup.length from hk)]
    exact hall _ (List.getElem_mem _)
  · refine ⟨?_, fun _ => ?_, fun _ => ?_, ?_⟩
    · unfold reach; dsimp only; rw [c5, a2, a3]; decide
    · dsimp only; rw [a4]; decide
    · dsimp only; rw [a5, a2]; decide
    · dsimp only; rw [a6]; norm_num
  · intro a b hab
    dsimp only at hab ⊢
    have hr : reach (L.getD 4 landInit).planner 1 = 2 := by unfold reach; rw [a2]; rfl
    rw [a3, c5, hr] at hab
    obtain ⟨i, hi, j, hj, rfl, rfl⟩ := central_nat (by omega) hab
    obtain ⟨h1, h2⟩ := a12 i hi j hj
    rw [h1, h2]
    constructor <;> norm_num
  · intro k h4 h9 e he
    dsimp only at he ⊢
    interval_cases k
    · cases he
    · cases he
    · cases he
    · injection he with he
      refine Or.inr ⟨_, he.symm, ?_⟩
      rw [c5]
      apply hshow
      rw [b3, b4]
      decide +kernel
    · cases he
  · dsimp only; rw [a7, a8]; norm_num
  · dsimp only; rw [a7, a6]; norm_num
  · exact List.eq_nil_of_length_eq_zero b2
  · dsimp only; rw [c5]
  · dsimp only; rw [c6]; norm_num
  · dsimp only; rw [c6, c7]; norm_num
  · intro k hk
    dsimp only
    rw [c5]
    apply hshow
    dsimp only
    revert k
    decide +kernel
  · dsimp only; rw [c8]
    exact ⟨0, 0, 0, 0, c9, c10, rfl, rfl, by norm_num⟩
  · dsimp only; rw [c11, a7, c12]; norm_num

/-- The default configuration of the two nodes (cfg/SafeLandingPlannerNode.cfg:8-17, cfg/WaypointGeneratorNode.cfg:10) can judge flat ground: `40 × 40` cells of 25 cm, smoothing over five lines, patches of radius 6. -/
example : CanJudge (applySizeUpdate (reconfigure plannerInit 100 (2/10) (1/10) 10 (1/4) (9/10) 5 70 70) : Planner ℚ) (slpInit : SlpNode ℚ).gen.smoothing_land_cell := by
  refine ⟨?_, fun _ => ?_, fun _ => ?_, ?_⟩ <;> decide +kernel

/-- The patches of a planner that smooths over a single line and asks for all nine cells of a neighbourhood to be flat (as `plannerInit` does) are never found landable:
the bound is strict. -/
example : ¬ CanJudge (plannerInit : Planner ℚ) 1 := by
  intro h
  exact absurd (h.enough (by decide)) (by decide +kernel)

end Landing
end Avoidance
