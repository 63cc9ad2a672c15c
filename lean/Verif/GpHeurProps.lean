import Verif.GpHeur
import Verif.GpEdgeProps
import Verif.GpFallbackProps
import Verif.AnglesProps

/-!
# Heuristics, quality of paths, turning costs (C60, C73, C74)
-/

namespace Avoidance
namespace Global

set_option linter.unusedSectionVars false

/-! ## C60: the risk heuristic -/

theorem accumulated_length : accumulatedPrior.length = 25 := by
  unfold accumulatedPrior
  rw [List.length_map, List.length_range]
  rfl

/-- **C60** (violated): the risk heuristic reads outside its table for every cell below the ground and for every cell from the 26th layer
on, although the configuration allows a maximum altitude of 50. -/
theorem C60_risk_heuristic_index_violated (z : ℤ) : accumulatedAt z = none ↔ z < 0 ∨ 25 ≤ z := by
  unfold accumulatedAt
  have hl := accumulated_length
  by_cases h : 0 ≤ z
  · rw [if_pos h, List.getElem?_eq_none_iff, hl]
    omega
  · rw [if_neg h]
    simp
    omega

/-- **C60**: inside the table the heuristic is defined (robot not larger than a map cell) and, for a cell at least one cell away
from the goal in the horizontal plane, it is not negative. -/
theorem C60_risk_heuristic (W : RiskWorld ℝ) (hW : GoodWorld W) (C : CostCfg) (hC : GoodCost C) (hr : 0 < W.robotRadius)
    (hres : 0 < W.resolution) (hle : W.robotRadius ≤ W.resolution) (u goal : Cell) (hu : 0 ≤ u.z ∧ u.z < 25) (hg : 0 ≤ goal.z ∧ goal.z < 25) :
    ∃ h, riskHeuristic 1 W C u goal = some h ∧ (1 ≤ u.diag2D (1 : ℝ) goal → 0 ≤ h) := by
  unfold riskHeuristic
  by_cases he : u = goal
  · rw [if_pos he]; exact ⟨0, rfl, fun _ => le_refl _⟩
  rw [if_neg he]
  dsimp only
  obtain ⟨a, ha⟩ := Option.ne_none_iff_exists'.mp (fun hn => by
    have := (C60_risk_heuristic_index_violated u.z).mp hn; omega)
  obtain ⟨b, hb⟩ := Option.ne_none_iff_exists'.mp (fun hn => by
    have := (C60_risk_heuristic_index_violated goal.z).mp hn; omega)
  obtain ⟨r, hrr⟩ := (C60_cell_risk 1 W hW goal hr hres).1.mpr hle
  have hr0 := cellRisk_nonneg 1 W hW goal r hrr
  rw [ha, hb, hrr]
  refine ⟨_, rfl, fun hd => ?_⟩
  have hun : 0 ≤ (1 + 6 * W.flow) * W.explore * C.riskFactor :=
    mul_nonneg (mul_nonneg (by linarith [hW.flow]) hW.explore0) hC.riskFactor
  have h1 : 0 ≤ (u.diag2D (1 : ℝ) goal - 1) * ((1 + 6 * W.flow) * W.explore * C.riskFactor) * altPrior 1 u :=
    mul_nonneg (mul_nonneg (by linarith) hun) (C60_altPrior (1 : ℝ) u).2.1
  have h2 := mul_nonneg hun (abs_nonneg (a - b))
  have h3 := mul_nonneg hr0 hC.riskFactor
  linarith

/-! ## Choosing the smallest entry -/

section
variable {ν K : Type*} [Field K] [LinearOrder K] [IsStrictOrderedRing K]

/-- position of a smallest priority -/
def argminIdx : List ((ν × Bool) × K) → ℕ
  | [] => 0
  | [_] => 0
  | e :: f :: l =>
    match (f :: l)[argminIdx (f :: l)]? with
    | none => 0
    | some g => if e.2 ≤ g.2 then 0 else argminIdx (f :: l) + 1

theorem argminIdx_spec : ∀ (l : List ((ν × Bool) × K)), l ≠ [] → ∃ g, l[argminIdx l]? = some g ∧ ∀ x ∈ l, g.2 ≤ x.2
  | [], h => absurd rfl h
  | [e], _ => ⟨e, rfl, fun x hx => by rw [List.mem_singleton] at hx; rw [hx]⟩
  | e :: f :: l, _ => by
      obtain ⟨g, h1, h2⟩ := argminIdx_spec (f :: l) (by simp)
      unfold argminIdx
      rw [h1]
      dsimp only
      by_cases hle : e.2 ≤ g.2
      · rw [if_pos hle]
        refine ⟨e, rfl, fun x hx => ?_⟩
        rcases List.mem_cons.mp hx with rfl | hx
        · exact le_refl _
        · exact le_trans hle (h2 x hx)
      · rw [if_neg hle]
        refine ⟨g, by rw [List.getElem?_cons_succ]; exact h1, fun x hx => ?_⟩
        rcases List.mem_cons.mp hx with rfl | hx
        · exact (not_le.mp hle).le
        · exact h2 x hx

/-- A priority queue exists: the assumption of C73 can be met. -/
theorem argmin_picks {κ : Type*} [DecidableEq κ] (P : Problem ν κ K) (hp : P.pick = argminIdx) : PicksMin P := by
  intro l e rest h x hx
  obtain ⟨g, h1, h2⟩ := argminIdx_spec l (fun hn => by rw [hn] at hx; exact absurd hx List.not_mem_nil)
  unfold popTop at h
  rw [hp] at h
  have hlt : argminIdx l < l.length := (List.getElem?_eq_some_iff.mp h1).1
  rw [Nat.mod_eq_of_lt hlt, h1, Option.map_some, Option.some_inj, Prod.mk.injEq] at h
  rw [← h.1]
  exact h2 x hx

end

/-! ## C73: the cell search -/

section
variable {K : Type*} [Field K] [LinearOrder K] [IsStrictOrderedRing K] [FloorRing K]

theorem old_cong {C : OldCfg K} {risk : Cell → Option K} (sc : K) (is3D : Bool) (t : Cell) (pick : List ((Cell × Bool) × K) → ℕ) :
    KeyCong (oldProblem sc C risk is3D t pick) := by
  constructor
  · intro a a' b c h hs
    have : a = a' := h
    rw [← this]; exact hs
  · intro a a' h
    have : a = a' := h
    rw [this]

theorem diag_step_le (a b t : Cell) : a.diag2D (1 : K) t ≤ a.diag2D 1 b + b.diag2D 1 t := (C52_diag_metric (1 : K) one_pos a b t).2.2.2

theorem diag_unit {a b : Cell} (h : |a.x - b.x| + |a.y - b.y| ≤ 1) : a.diag2D (1 : K) b ≤ 1 := by
  rw [diag2D_octile, one_mul, one_mul]
  have hx : |((a.x - b.x : ℤ) : K)| = ((|a.x - b.x| : ℤ) : K) := by rw [Int.cast_abs]
  have hy : |((a.y - b.y : ℤ) : K)| = ((|a.y - b.y| : ℤ) : K) := by rw [Int.cast_abs]
  unfold octile
  rw [hx, hy]
  have h' : ((|a.x - b.x| : ℤ) : K) + ((|a.y - b.y| : ℤ) : K) ≤ 1 := by exact_mod_cast h
  have m0 : (0 : K) ≤ min ((|a.x - b.x| : ℤ) : K) ((|a.y - b.y| : ℤ) : K) := le_min (by positivity) (by positivity)
  have := (diagLit_bounds (K := K)).2
  nlinarith

theorem diag_diag {a b : Cell} (h1 : |a.x - b.x| ≤ 1) (h2 : |a.y - b.y| ≤ 1) : a.diag2D (1 : K) b ≤ diagLit := by
  rw [diag2D_octile, one_mul, one_mul, octile_max]
  have hx : |((a.x - b.x : ℤ) : K)| ≤ 1 := by rw [← Int.cast_abs]; exact_mod_cast h1
  have hy : |((a.y - b.y : ℤ) : K)| ≤ 1 := by rw [← Int.cast_abs]; exact_mod_cast h2
  have := (diagLit_bounds (K := K)).1
  apply max_le <;> nlinarith

/-- The heuristic of the cell search overestimates no move by more than the overestimation factor times 1.00299 (the diagonal
step costs 1.41, the heuristic counts 1.41421356). -/
theorem old_consistent {C : OldCfg K} {risk : Cell → Option K} (h : GoodOld C risk) (hd : 1 ≤ C.down) (ho : 1 ≤ C.overestimate)
    (is3D : Bool) (t : Cell) (pick : List ((Cell × Bool) × K) → ℕ) :
    Consistent (oldProblem 1 C risk is3D t pick) (oldHeur C 1 t) (C.overestimate * (diagLit / (141 / 100))) := by
  have hup := h.up
  have hb : ∀ v : Cell, 0 ≤ v.diag2D (1 : K) t + C.up * ((max 0 (t.z - v.z) : ℤ) : K) + ((max 0 (v.z - t.z) : ℤ) : K) := by
    intro v
    have h1 := (C52_diag_metric (1 : K) one_pos v t t).1
    have h2 : (0 : K) ≤ ((max 0 (t.z - v.z) : ℤ) : K) := by exact_mod_cast le_max_left _ _
    have h3 : (0 : K) ≤ ((max 0 (v.z - t.z) : ℤ) : K) := by exact_mod_cast le_max_left _ _
    have := mul_nonneg hup h2
    linarith
  have hq : (1 : K) ≤ diagLit / (141 / 100) := by unfold diagLit; norm_num
  refine ⟨fun _ _ => rfl, fun k => mul_nonneg (by linarith) (hb k), ?_, ?_⟩
  · intro v hv
    have hv' : v = t := of_decide_eq_true hv
    subst hv'
    show oldHeur C 1 v v = 0
    unfold oldHeur
    rw [((C52_diag_metric (1 : K) one_pos v v v).2.2.1).mpr ⟨rfl, rfl⟩]
    simp
  · rintro a b c ⟨v, h1, h2, h3, h4⟩
    have hv : v = b := h3
    subst hv
    have hstep := (openNeighbors_step C is3D a v).mp h1
    have h4' : oldCost C risk is3D a v = some c := h4
    -- the cost is at least the cost of the edge
    unfold oldCost at h4'
    cases hf : (openNeighbors C a is3D).find? (fun p => decide (p.1 = v)) with
    | none => rw [hf] at h4'; exact absurd h4' (by simp)
    | some p =>
        cases hr : risk v with
        | none => rw [hf, hr] at h4'; exact absurd h4' (by simp)
        | some r =>
            rw [hf, hr] at h4'
            have hc : p.2 ≤ c := by
              rw [← Option.some_inj.mp h4']
              have := mul_nonneg h.riskFactor (h.risk v r hr)
              linarith
            have hpv : p.1 = v := by
              have := List.find?_some hf
              exact of_decide_eq_true this
            have hpm := List.mem_of_find?_eq_some hf
            -- one move changes the unscaled heuristic by at most diagLit/1.41 times its cost
            have key : a.diag2D (1 : K) t + C.up * ((max 0 (t.z - a.z) : ℤ) : K) + ((max 0 (a.z - t.z) : ℤ) : K) ≤
                diagLit / (141 / 100) * p.2 + (v.diag2D (1 : K) t + C.up * ((max 0 (t.z - v.z) : ℤ) : K) + ((max 0 (v.z - t.z) : ℤ) : K)) := by
              have tri := diag_step_le (K := K) a v t
              unfold openNeighbors at hpm
              simp only [List.mem_append, List.mem_cons, List.not_mem_nil, or_false] at hpm
              rcases hpm with (hpm | hpm) | hpm
              · have hz : v.z = a.z := by
                  rw [← hpv]
                  rcases hpm with rfl | rfl | rfl | rfl | rfl | rfl | rfl | rfl <;> rfl
                rw [hz]
                have hdp : a.diag2D (1 : K) v ≤ diagLit / (141 / 100) * p.2 := by
                  rw [← hpv]
                  have e2 : (diagLit : K) / (141 / 100) * (141 / 100) = diagLit := by field_simp
                  rcases hpm with rfl | rfl | rfl | rfl | rfl | rfl | rfl | rfl
                  · exact le_trans (diag_unit (by simp)) (by linarith)
                  · rw [e2]; exact diag_diag (by simp) (by simp)
                  · rw [e2]; exact diag_diag (by simp) (by simp)
                  · exact le_trans (diag_unit (by simp)) (by linarith)
                  · rw [e2]; exact diag_diag (by simp) (by simp)
                  · rw [e2]; exact diag_diag (by simp) (by simp)
                  · exact le_trans (diag_unit (by simp)) (by linarith)
                  · exact le_trans (diag_unit (by simp)) (by linarith)
                linarith
              · split at hpm
                · rw [List.mem_singleton] at hpm
                  have hve : v = ⟨a.x, a.y, a.z + 1⟩ := by rw [← hpv, hpm]
                  have hp2 : p.2 = C.up := by rw [hpm]
                  have hd0 : a.diag2D (1 : K) v = 0 := ((C52_diag_metric (1 : K) one_pos a v v).2.2.1).mpr (by rw [hve]; exact ⟨rfl, rfl⟩)
                  rw [hp2]
                  have e1 : max 0 (t.z - a.z) ≤ 1 + max 0 (t.z - v.z) := by rw [hve]; dsimp only; omega
                  have e2 : max 0 (a.z - t.z) ≤ max 0 (v.z - t.z) := by rw [hve]; dsimp only; omega
                  have e1' : ((max 0 (t.z - a.z) : ℤ) : K) ≤ 1 + ((max 0 (t.z - v.z) : ℤ) : K) := by exact_mod_cast e1
                  have e2' : ((max 0 (a.z - t.z) : ℤ) : K) ≤ ((max 0 (v.z - t.z) : ℤ) : K) := by exact_mod_cast e2
                  have m1 := mul_le_mul_of_nonneg_left e1' hup
                  have m2 := mul_le_mul_of_nonneg_right hq hup
                  linarith
                · exact absurd hpm List.not_mem_nil
              · split at hpm
                · rw [List.mem_singleton] at hpm
                  have hve : v = ⟨a.x, a.y, a.z - 1⟩ := by rw [← hpv, hpm]
                  have hp2 : p.2 = C.down := by rw [hpm]
                  have hd0 : a.diag2D (1 : K) v = 0 := ((C52_diag_metric (1 : K) one_pos a v v).2.2.1).mpr (by rw [hve]; exact ⟨rfl, rfl⟩)
                  rw [hp2]
                  have e1 : max 0 (t.z - a.z) ≤ max 0 (t.z - v.z) := by rw [hve]; dsimp only; omega
                  have e2 : max 0 (a.z - t.z) ≤ 1 + max 0 (v.z - t.z) := by rw [hve]; dsimp only; omega
                  have e1' : ((max 0 (t.z - a.z) : ℤ) : K) ≤ ((max 0 (t.z - v.z) : ℤ) : K) := by exact_mod_cast e1
                  have e2' : ((max 0 (a.z - t.z) : ℤ) : K) ≤ 1 + ((max 0 (v.z - t.z) : ℤ) : K) := by exact_mod_cast e2
                  have m1 := mul_le_mul_of_nonneg_left e1' hup
                  have m2 : 1 ≤ diagLit / (141 / 100) * C.down := by nlinarith
                  linarith
                · exact absurd hpm List.not_mem_nil
            show oldHeur C 1 t a ≤ C.overestimate * (diagLit / (141 / 100)) * c + oldHeur C 1 t v
            unfold oldHeur
            have ho0 : 0 ≤ C.overestimate := by linarith
            have k1 := mul_le_mul_of_nonneg_left key ho0
            have k2 : C.overestimate * (diagLit / (141 / 100)) * p.2 ≤ C.overestimate * (diagLit / (141 / 100)) * c :=
              mul_le_mul_of_nonneg_left hc (mul_nonneg ho0 (by linarith))
            linarith

/-- **C73**, for the cell search of the last resort: the path found costs at most the overestimation factor times 1.00299 as much as
any other path of allowed steps (descending must cost at least 1 per cell). -/
theorem C73_cell_search_quality {C : OldCfg K} {risk : Cell → Option K} (h : GoodOld C risk) (hd : 1 ≤ C.down) (ho : 1 ≤ C.overestimate)
    (is3D : Bool) (s t parent : Cell) (max n : ℕ) {path : List Cell}
    (hf : findPathOld 1 C risk is3D s t parent argminIdx max n = some (some path)) :
    ∃ cost, PathCost (oldProblem 1 C risk is3D t argminIdx) path.tail cost ∧
      ∀ l c, PathCost (oldProblem 1 C risk is3D t argminIdx) l c → l.head? = some s → l.getLast? = some t →
        cost ≤ C.overestimate * (diagLit / (141 / 100)) * c := by
  rw [findPathOld_eq h] at hf
  rw [Option.map_eq_some_iff] at hf
  obtain ⟨⟨o, it⟩, hf, hop⟩ := hf
  dsimp only at hop
  rw [Option.map_eq_some_iff] at hop
  obtain ⟨l0, hl, hlp⟩ := hop
  subst hl
  have hq : (1 : K) ≤ diagLit / (141 / 100) := by unfold diagLit; norm_num
  obtain ⟨cost, h1, h2⟩ := C73_bounded_suboptimality _ (old_nonneg h 1 is3D t argminIdx) (old_cong 1 is3D t argminIdx)
    (argmin_picks _ rfl) _ _ (by nlinarith) (old_consistent h hd ho is3D t argminIdx) s max n hf
  refine ⟨cost, by rw [← hlp]; exact h1, fun l c h3 h4 h5 => h2 l c t h3 h4 h5 ?_⟩
  show decide (t = t) = true
  simp

end

/-- non-vacuity: the search of the example finds the way over the wall, and its cost can be compared with other paths -/
example : GoodOld exOld exRisk ∧ 1 ≤ exOld.down ∧ 1 ≤ exOld.overestimate ∧
    findPathOld 1 exOld exRisk false ⟨0, 0, 4⟩ ⟨2, 0, 4⟩ ⟨0, 0, 4⟩ argminIdx 5000 40 =
      some (some [⟨0, 0, 4⟩, ⟨0, 0, 4⟩, ⟨1, 0, 4⟩, ⟨2, 0, 4⟩]) :=
  ⟨exOld_good, by norm_num [exOld], by norm_num [exOld], by decide +kernel⟩

/-- non-vacuity of C72: a search that fails before its iterations are used up (the goal cell is walled in: the search in the
plane from a cell whose eight neighbours are too risky) -/
def walledRisk (c : Cell) : Option ℚ := if c = ⟨0, 0, 2⟩ then some 0 else some 1
example : findSmoothPath (oldProblem 1 exOld walledRisk false ⟨5, 0, 2⟩ argminIdx) ⟨0, 0, 2⟩ 100 10 = some (none, 1) := by
  decide +kernel

/-! ## C73: the search of the planner -/

/-- horizontal grid distance against straight distance -/
theorem octile_le_euclid (a b : ℝ) : octile a b ≤ 1083 / 1000 * Real.sqrt (a ^ 2 + b ^ 2) := by
  have h0 : 0 ≤ Real.sqrt (a ^ 2 + b ^ 2) := Real.sqrt_nonneg _
  have hs : Real.sqrt (a ^ 2 + b ^ 2) ^ 2 = |a| ^ 2 + |b| ^ 2 := by
    rw [Real.sq_sqrt (by positivity), sq_abs, sq_abs]
  have hl : (diagLit : ℝ) - 1 ≤ 4143 / 10000 := by unfold diagLit; norm_num
  have hl0 := (diagLit_bounds (K := ℝ)).1
  have aux : ∀ m k : ℝ, 0 ≤ m → 0 ≤ k → Real.sqrt (a ^ 2 + b ^ 2) ^ 2 = m ^ 2 + k ^ 2 →
      m + (diagLit - 1) * k ≤ 1083 / 1000 * Real.sqrt (a ^ 2 + b ^ 2) := by
    intro m k hm hk hmk
    have h1 : m + (diagLit - 1) * k ≤ m + 4143 / 10000 * k := by nlinarith
    refine le_trans h1 ?_
    refine abs_le_of_sq_le_sq' ?_ (by positivity) |>.2
    rw [mul_pow, hmk]
    nlinarith [sq_nonneg (4143 / 10000 * m - k)]
  rw [octile_max]
  apply max_le
  · exact aux |a| |b| (abs_nonneg _) (abs_nonneg _) hs
  · exact aux |b| |a| (abs_nonneg _) (abs_nonneg _) (by rw [hs]; ring)

/-- The factor by which the heuristic may overestimate one move: the configured one, and 8.3 % more for the node type with
speed, whose moves are straight lines. -/
noncomputable def qualityFactor (k : NodeKind) (f : ℝ) : ℝ := match k with
  | .speed => f * (1083 / 1000)
  | _ => f

/-- The part of the heuristic without turning, risk and counting. -/
noncomputable def plainHeur (f : ℝ) (C : CostCfg) (goal c : Cell) : ℝ :=
  f * c.diag2D 1 goal + (if 0 < goal.z - c.z then C.up * |((goal.z - c.z : ℤ) : ℝ)| else C.down * |((goal.z - c.z : ℤ) : ℝ)|)

theorem plainHeur_eq (W : RiskWorld ℝ) (C : CostCfg) (H : HeurCfg) (h1 : H.smooth = 0) (h2 : H.useRisk = false) (h3 : H.useSpeedup = false)
    (h4 : H.up = C.up) (h5 : H.down = C.down) (goal : Cell) (hist : List Node) (u : Node) :
    getHeuristic 1 W C H goal hist u = some (plainHeur H.overestimate C goal u.cell) := by
  unfold getHeuristic
  rw [if_neg (by rw [h2]; simp)]
  dsimp only
  have hs : smoothnessHeuristic H u goal = 0 := by
    unfold smoothnessHeuristic
    rw [h1, zero_mul, zero_mul]
    simp
  rw [hs, h3, if_neg (by simp)]
  unfold altitudeHeuristic plainHeur
  rw [h4, h5, add_zero, add_zero, add_zero]

theorem alt_step (up down : ℝ) (hu : 0 ≤ up) (hd : 0 ≤ down) (a v g : ℤ) :
    (if 0 < g - a then up * |((g - a : ℤ) : ℝ)| else down * |((g - a : ℤ) : ℝ)|) ≤
      (up * max ((v - a : ℤ) : ℝ) 0 + down * max (-((v - a : ℤ) : ℝ)) 0) +
      (if 0 < g - v then up * |((g - v : ℤ) : ℝ)| else down * |((g - v : ℤ) : ℝ)|) := by
  have f : ∀ z : ℤ, (if 0 < z then up * |((z : ℤ) : ℝ)| else down * |((z : ℤ) : ℝ)|) = up * max (z : ℝ) 0 + down * max (-(z : ℝ)) 0 := by
    intro z
    by_cases hz : 0 < z
    · have : (0 : ℝ) < (z : ℝ) := by exact_mod_cast hz
      rw [if_pos hz, abs_of_pos this, max_eq_left this.le, max_eq_right (by linarith), mul_zero, add_zero]
    · have : (z : ℝ) ≤ 0 := by exact_mod_cast not_lt.mp hz
      rw [if_neg hz, abs_of_nonpos this, max_eq_right this, max_eq_left (by linarith), mul_zero, zero_add]
  rw [f, f]
  have e : ((g - a : ℤ) : ℝ) = ((v - a : ℤ) : ℝ) + ((g - v : ℤ) : ℝ) := by push_cast; ring
  have m1 : max ((g - a : ℤ) : ℝ) 0 ≤ max ((v - a : ℤ) : ℝ) 0 + max ((g - v : ℤ) : ℝ) 0 := by
    rw [e]
    apply max_le
    · exact add_le_add (le_max_left _ _) (le_max_left _ _)
    · have := le_max_right ((v - a : ℤ) : ℝ) 0
      have := le_max_right ((g - v : ℤ) : ℝ) 0
      linarith
  have m2 : max (-((g - a : ℤ) : ℝ)) 0 ≤ max (-((v - a : ℤ) : ℝ)) 0 + max (-((g - v : ℤ) : ℝ)) 0 := by
    rw [e]
    apply max_le
    · have := le_max_left (-((v - a : ℤ) : ℝ)) 0
      have := le_max_left (-((g - v : ℤ) : ℝ)) 0
      linarith
    · have := le_max_right (-((v - a : ℤ) : ℝ)) 0
      have := le_max_right (-((g - v : ℤ) : ℝ)) 0
      linarith
  have := mul_le_mul_of_nonneg_left m1 hu
  have := mul_le_mul_of_nonneg_left m2 hd
  linarith

variable (radius : ℝ) (W : RiskWorld ℝ) (C : CostCfg) (early : Cell → Bool) (k : NodeKind) (t : GoalCell ℝ)

theorem plain_consistent (hW : GoodWorld W) (hC : GoodCost C) (f : ℝ) (hf : 1 ≤ f) (ht : t.radius = 1)
    (pick : List ((Node × Bool) × ℝ) → ℕ) :
    Consistent (plannerProblem 1 radius W C early k t (fun _ v => plainHeur f C t.cell v.cell) pick)
      (fun key => plainHeur f C t.cell key.1) (qualityFactor k f) := by
  have hk1 : ∀ v : Node, (nodeKey k v).1 = v.cell := by
    intro v; unfold nodeKey; cases k <;> rfl
  have hq : f ≤ qualityFactor k f := by
    unfold qualityFactor; cases k
    · exact le_refl _
    · exact le_refl _
    · dsimp only; linarith
  refine ⟨fun _ v => ?_, fun key => ?_, ?_, ?_⟩
  · show plainHeur f C t.cell v.cell = plainHeur f C t.cell (nodeKey k v).1
    rw [hk1]
  · show 0 ≤ plainHeur f C t.cell key.1
    unfold plainHeur
    have h1 := (C52_diag_metric (1 : ℝ) one_pos key.1 t.cell t.cell).1
    have h2 : 0 ≤ (if 0 < t.cell.z - key.1.z then C.up * |((t.cell.z - key.1.z : ℤ) : ℝ)| else C.down * |((t.cell.z - key.1.z : ℤ) : ℝ)|) := by
      split
      · exact mul_nonneg hC.up (abs_nonneg _)
      · exact mul_nonneg hC.down (abs_nonneg _)
    have := mul_nonneg (by linarith : (0 : ℝ) ≤ f) h1
    linarith
  · intro v hv
    have hv' : t.withinPlan 1 v.cell := of_decide_eq_true hv
    have hcell : v.cell = t.cell := (C52_goal_default_radius (1 : ℝ) one_pos t ht v.cell).1 hv'
    show plainHeur f C t.cell (nodeKey k v).1 = 0
    rw [hk1, hcell]
    unfold plainHeur
    rw [((C52_diag_metric (1 : ℝ) one_pos t.cell t.cell t.cell).2.2.1).mpr ⟨rfl, rfl⟩]
    simp
  · intro a b c hstep
    show plainHeur f C t.cell (nodeKey k a).1 ≤ qualityFactor k f * c + plainHeur f C t.cell (nodeKey k b).1
    rw [hk1, hk1]
    obtain ⟨v, h1, h2, h3, h4⟩ := hstep
    have h1' : v ∈ nodeNeighbors 1 radius k a := h1
    have hvb : v.cell = b.cell := nodeKey_cell (k := k) h3
    have h4' : edgeCost 1 W C early k a v = some c := h4
    unfold edgeCost at h4'
    rw [Option.map_eq_some_iff] at h4'
    obtain ⟨r, hr, rfl⟩ := h4'
    have hr0 := mul_nonneg hC.riskFactor (nodeRisk_nonneg 1 W hW v r hr)
    have hs0 : 0 ≤ (if early a.cell = true then (2 : ℝ) else 1) * (C.smooth * (a.rotation k v) ^ 2) := by
      apply mul_nonneg
      · split <;> norm_num
      · exact mul_nonneg hC.smooth (sq_nonneg _)
    have he0 := edgeDist_nonneg 1 C hC a.cell v.cell
    rw [← hvb]
    -- the distance part
    have hd : f * a.cell.diag2D 1 v.cell ≤ qualityFactor k f * a.cell.dist2D 1 v.cell := by
      have hnn : 0 ≤ a.cell.dist2D 1 v.cell := Real.sqrt_nonneg _
      have hnb : k ≠ .speed → v.cell ∈ a.cell.neighbors := by
        intro hk
        unfold nodeNeighbors at h1'
        cases k <;> dsimp only at h1'
        · rw [List.mem_map] at h1'; obtain ⟨w, hw, rfl⟩ := h1'; exact hw
        · rw [List.mem_map] at h1'; obtain ⟨w, hw, rfl⟩ := h1'; exact hw
        · exact absurd rfl hk
      by_cases hk : k = .speed
      · subst hk
        unfold qualityFactor
        dsimp only
        have := octile_le_euclid (1 * ((a.cell.x - v.cell.x : ℤ) : ℝ)) (1 * ((a.cell.y - v.cell.y : ℤ) : ℝ))
        rw [← diag2D_octile] at this
        have e : Real.sqrt ((1 * ((a.cell.x - v.cell.x : ℤ) : ℝ)) ^ 2 + (1 * ((a.cell.y - v.cell.y : ℤ) : ℝ)) ^ 2) = a.cell.dist2D 1 v.cell := by
          unfold Cell.dist2D
          rw [pos_sub, pos_sub]
        rw [e] at this
        have := mul_le_mul_of_nonneg_left this (by linarith : (0 : ℝ) ≤ f)
        linarith
      · have hqf : qualityFactor k f = f := by unfold qualityFactor; cases k <;> first | rfl | exact absurd rfl hk
        rw [hqf]
        exact mul_le_mul_of_nonneg_left (C52_step_length 1 one_pos a.cell v.cell (hnb hk)).1 (by linarith)
    have htri := mul_le_mul_of_nonneg_left (diag_step_le (K := ℝ) a.cell v.cell t.cell) (by linarith : (0 : ℝ) ≤ f)
    have halt := alt_step C.up C.down hC.up hC.down a.cell.z v.cell.z t.cell.z
    have hqq : 1 ≤ qualityFactor k f := le_trans hf hq
    unfold plainHeur
    have e1 : edgeDist 1 C a.cell v.cell = a.cell.dist2D 1 v.cell +
        (C.up * max (((v.cell.z - a.cell.z : ℤ) : ℝ)) 0 + C.down * max (-((v.cell.z - a.cell.z : ℤ) : ℝ)) 0) := by
      unfold edgeDist
      rw [pos_sub, one_mul]
      ring
    rw [e1] at he0 ⊢
    have hv0 : 0 ≤ C.up * max (((v.cell.z - a.cell.z : ℤ) : ℝ)) 0 + C.down * max (-((v.cell.z - a.cell.z : ℤ) : ℝ)) 0 :=
      add_nonneg (mul_nonneg hC.up (le_max_right _ _)) (mul_nonneg hC.down (le_max_right _ _))
    have g1 : C.up * max (((v.cell.z - a.cell.z : ℤ) : ℝ)) 0 + C.down * max (-((v.cell.z - a.cell.z : ℤ) : ℝ)) 0 ≤
        qualityFactor k f * (C.up * max (((v.cell.z - a.cell.z : ℤ) : ℝ)) 0 + C.down * max (-((v.cell.z - a.cell.z : ℤ) : ℝ)) 0) := by
      nlinarith
    have g2 : 0 ≤ qualityFactor k f * (C.riskFactor * r) := mul_nonneg (by linarith) hr0
    have g3 : 0 ≤ qualityFactor k f * ((if early a.cell = true then (2 : ℝ) else 1) * (C.smooth * (a.rotation k v) ^ 2)) :=
      mul_nonneg (by linarith) hs0
    rw [mul_add, mul_add, mul_add]
    linarith

/-- **C73**, for the planner: with the heuristics for turning, risk and speed-up switched off, every node type, every map and every
pair of start and goal (goal radius 1): the path found costs at most the overestimation factor times the cost of any other legal
path - for the node type with speed another 8.3 % more. In particular with a factor of 1 the planner's own edge costs are minimal. -/
theorem C73_planner_quality (hW : GoodWorld W) (hC : GoodCost C) (H : HeurCfg) (hf : 1 ≤ H.overestimate) (h1 : H.smooth = 0)
    (h2 : H.useRisk = false) (h3 : H.useSpeedup = false) (h4 : H.up = C.up) (h5 : H.down = C.down) (ht : t.radius = 1) (s : Node)
    (max n : ℕ) {path : List Node} {it : ℕ}
    (hfind : findSmoothPath (plannerProblem 1 radius W C early k t (fun hist v => (getHeuristic 1 W C H t.cell hist v).getD 0) argminIdx)
      s max n = some (some path, it)) :
    ∃ cost, PathCost (plannerProblem 1 radius W C early k t (fun hist v => (getHeuristic 1 W C H t.cell hist v).getD 0) argminIdx) path cost ∧
      ∀ l c g, PathCost (plannerProblem 1 radius W C early k t (fun hist v => (getHeuristic 1 W C H t.cell hist v).getD 0) argminIdx) l c →
        l.head? = some s → l.getLast? = some g → t.withinPlan 1 g.cell → cost ≤ qualityFactor k H.overestimate * c := by
  have he : (fun hist v => (getHeuristic 1 W C H t.cell hist v).getD 0) = (fun (_ : List Node) v => plainHeur H.overestimate C t.cell v.cell) := by
    funext hist v
    rw [plainHeur_eq W C H h1 h2 h3 h4 h5, Option.getD_some]
  rw [he] at hfind ⊢
  have hq : 1 ≤ qualityFactor k H.overestimate := by
    unfold qualityFactor; cases k <;> dsimp only <;> linarith
  obtain ⟨cost, g1, g2⟩ := C73_bounded_suboptimality _ (planner_nonneg 1 radius W C early k t _ argminIdx hW hC)
    (planner_cong 1 radius W C early k t _ argminIdx) (argmin_picks _ rfl) _ _ hq
    (plain_consistent radius W C early k t hW hC H.overestimate hf ht argminIdx) s max n hfind
  exact ⟨cost, g1, fun l c g h6 h7 h8 h9 => g2 l c g h6 h7 h8 (decide_eq_true h9)⟩

/-! ## C74: turning -/

/-- **Specification**: the turn between two headings, in units of 45 degrees: the angle between the horizontal directions of the two
moves. -/
noncomputable def turn45 (n o : Node) : ℝ :=
  |wrapPi ((o.cell.sub o.parent).angle - (n.cell.sub n.parent).angle)| / (Real.pi / 4)

/-- **C74**: if both moves have a horizontal part, the rotation charged is the turn between them in units of 45 degrees, between 0 and
4 - except when the first move is along x and the second exactly along y. -/
theorem C74_rotation_partial (n o : Node) (h1 : n.cell.y ≠ n.parent.y ∨ (n.cell.x ≠ n.parent.x ∧ o.cell.x ≠ o.parent.x)) :
    n.xyRotation o = turn45 n o ∧ 0 ≤ n.xyRotation o ∧ n.xyRotation o ≤ 4 := by
  have hpi := Real.pi_pos
  have e : n.xyRotation o = turn45 n o := by
    unfold Node.xyRotation turn45
    dsimp only
    rw [if_neg ?_, C01_angleToRange_eq_wrapPi]
    unfold Cell.sub
    dsimp only
    rintro (⟨ha, hb⟩ | ⟨ha, hb⟩)
    · rcases h1 with h | ⟨h, _⟩ <;> omega
    · rcases h1 with h | ⟨_, h⟩ <;> omega
  refine ⟨e, ?_, ?_⟩
  · rw [e]; unfold turn45; positivity
  · rw [e]
    unfold turn45
    rw [div_le_iff₀ (by positivity)]
    have hb : -Real.pi ≤ wrapPi ((o.cell.sub o.parent).angle - (n.cell.sub n.parent).angle) ∧
        wrapPi ((o.cell.sub o.parent).angle - (n.cell.sub n.parent).angle) < Real.pi := by
      have := (C01_wrapPi_canonical ((o.cell.sub o.parent).angle - (n.cell.sub n.parent).angle)).1
      exact ⟨this.1, this.2.1⟩
    rw [abs_le]
    constructor <;> linarith

theorem wrapPi_small (a : ℝ) (h1 : -Real.pi ≤ a) (h2 : a < Real.pi) : wrapPi a = a :=
  ((C01_wrapPi_canonical a).2 a h1 h2 ⟨0, by simp⟩).symm

theorem angle_x (z : ℤ) : Cell.angle ⟨1, 0, z⟩ = 0 := by
  unfold Cell.angle atan2
  have : (⟨((1 : ℤ) : ℝ), ((0 : ℤ) : ℝ)⟩ : ℂ) = 1 := by apply Complex.ext <;> simp
  rw [this, Complex.arg_one]

theorem angle_y (z : ℤ) : Cell.angle ⟨0, 1, z⟩ = Real.pi / 2 := by
  unfold Cell.angle atan2
  have : (⟨((0 : ℤ) : ℝ), ((1 : ℤ) : ℝ)⟩ : ℂ) = Complex.I := by apply Complex.ext <;> simp
  rw [this, Complex.arg_I]

theorem angle_none (z : ℤ) : Cell.angle ⟨0, 0, z⟩ = 0 := by
  unfold Cell.angle atan2
  have : (⟨((0 : ℤ) : ℝ), ((0 : ℤ) : ℝ)⟩ : ℂ) = 0 := by apply Complex.ext <;> simp
  rw [this, Complex.arg_zero]

/-- **C74** (violated): a quarter turn from flying along x to flying along y is charged nothing, while the same turn from y to x is
charged two units. -/
theorem C74_quarter_turn_free_violated (z : ℤ) :
    let ex : Node := ⟨⟨1, 0, z⟩, ⟨0, 0, z⟩⟩
    let ey : Node := ⟨⟨1, 1, z⟩, ⟨1, 0, z⟩⟩
    turn45 ex ey = 2 ∧ ex.xyRotation ey = 0 ∧ ey.xyRotation ex = 2 ∧ turn45 ey ex = 2 := by
  have hpi := Real.pi_pos
  have a1 : (Cell.sub ⟨1, 0, z⟩ ⟨0, 0, z⟩) = ⟨1, 0, 0⟩ := by unfold Cell.sub; simp
  have a2 : (Cell.sub ⟨1, 1, z⟩ ⟨1, 0, z⟩) = ⟨0, 1, 0⟩ := by unfold Cell.sub; simp
  have t2 : turn45 ⟨⟨1, 1, z⟩, ⟨1, 0, z⟩⟩ ⟨⟨1, 0, z⟩, ⟨0, 0, z⟩⟩ = 2 := by
    unfold turn45
    dsimp only
    rw [a1, a2, angle_x, angle_y, wrapPi_small _ (by linarith) (by linarith), abs_of_nonpos (by linarith)]
    field_simp
    ring
  refine ⟨?_, ?_, ?_, t2⟩
  · unfold turn45
    dsimp only
    rw [a1, a2, angle_x, angle_y, wrapPi_small _ (by linarith) (by linarith), abs_of_nonneg (by linarith)]
    field_simp
    ring
  · unfold Node.xyRotation
    dsimp only
    rw [a1, a2]
    simp
  · rw [(C74_rotation_partial _ _ (Or.inl (by dsimp only; omega))).1, t2]

/-- **C74** (violated): flying on straight up after a move along y - no horizontal direction, so no turn - is charged a quarter turn. -/
theorem C74_vertical_move_violated (z : ℤ) :
    let ey : Node := ⟨⟨0, 1, z⟩, ⟨0, 0, z⟩⟩
    let up : Node := ⟨⟨0, 1, z + 1⟩, ⟨0, 1, z⟩⟩
    up.cell.x = up.parent.x ∧ up.cell.y = up.parent.y ∧ ey.xyRotation up = 2 := by
  have hpi := Real.pi_pos
  refine ⟨rfl, rfl, ?_⟩
  rw [(C74_rotation_partial _ _ (Or.inl (by dsimp only; omega))).1]
  unfold turn45
  dsimp only
  have a1 : (Cell.sub ⟨0, 1, z⟩ ⟨0, 0, z⟩) = ⟨0, 1, 0⟩ := by unfold Cell.sub; simp
  have a2 : (Cell.sub ⟨0, 1, z + 1⟩ ⟨0, 1, z⟩) = ⟨0, 0, 1⟩ := by unfold Cell.sub; simp
  rw [a1, a2, angle_none, angle_y, wrapPi_small _ (by linarith) (by linarith), abs_of_nonpos (by linarith)]
  field_simp
  ring

/-- The rotation charged with the default node type: the turn, and one half for a change between level and climbing or sinking. -/
theorem C74_smoothness_zero_straight (n : Node) (o : Node) (h : o.cell.sub o.parent = n.cell.sub n.parent) (k : NodeKind) :
    n.rotation k o = 0 := by
  have hxy : n.xyRotation o = 0 := by
    unfold Node.xyRotation
    dsimp only
    by_cases hc : (n.cell.sub n.parent).x = 0 ∧ (n.cell.sub n.parent).y = 0 ∨
        (o.cell.sub o.parent).x = 0 ∧ (n.cell.sub n.parent).y = 0
    · rw [if_pos hc]
    · rw [if_neg hc, h, sub_self, C01_angleToRange_eq_wrapPi, wrapPi_small 0 (by linarith [Real.pi_pos]) Real.pi_pos]
      simp
  unfold Node.rotation
  cases k <;> dsimp only
  · rw [hxy, if_neg ?_]
    · simp
    · have hz : o.cell.z - o.parent.z = n.cell.z - n.parent.z := by
        have := congrArg Cell.z h
        exact this
      rw [hz]
      unfold Xor
      tauto
  · rw [hxy, if_neg ?_]
    · simp
    · have hz : o.cell.z - o.parent.z = n.cell.z - n.parent.z := by
        have := congrArg Cell.z h
        exact this
      rw [hz]
      unfold Xor
      tauto

/-- **C73** (limit of the claim): the heuristic for turning may overestimate even with an overestimation factor of 1: flying along x with
the goal diagonally above the next cell, the estimate is a whole smoothness unit for the change of height while the move itself is charged
a quarter, so unless the risk makes up for it the estimate exceeds the true cost of reaching the goal. -/
theorem C73_smoothness_overestimates_violated (W : RiskWorld ℝ) (C : CostCfg) (z : ℤ) (H : HeurCfg) (hf : H.overestimate = 1) (hs : 0 < H.smooth)
    (h2 : H.useRisk = false) (h3 : H.useSpeedup = false) (h4 : H.up = C.up) (h5 : H.smooth = C.smooth)
    (r : ℝ) (hr : nodeRisk 1 W ⟨⟨1, 0, z + 1⟩, ⟨0, 0, z⟩⟩ = some r) (hsafe : C.riskFactor * r < 3 / 4 * C.smooth) :
    let u : Node := ⟨⟨0, 0, z⟩, ⟨-1, 0, z⟩⟩
    let v : Node := ⟨⟨1, 0, z + 1⟩, ⟨0, 0, z⟩⟩
    ∃ h c, getHeuristic 1 W C H v.cell [] u = some h ∧ edgeCost 1 W C (fun _ => false) .node u v = some c ∧
      getHeuristic 1 W C H v.cell [] v = some 0 ∧ c < h := by
  have hpi := Real.pi_pos
  have a1 : (Cell.sub ⟨0, 0, z⟩ ⟨-1, 0, z⟩) = ⟨1, 0, 0⟩ := by unfold Cell.sub; simp
  have a2 : (Cell.sub ⟨1, 0, z + 1⟩ ⟨0, 0, z⟩) = ⟨1, 0, 1⟩ := by unfold Cell.sub; simp
  have hw : wrapPi 0 = 0 := wrapPi_small 0 (by linarith) hpi
  have hd : Cell.diag2D (1 : ℝ) ⟨0, 0, z⟩ ⟨1, 0, z + 1⟩ = 1 := by
    rw [diag2D_octile]
    unfold octile
    norm_num
  have hd0 : Cell.diag2D (1 : ℝ) ⟨1, 0, z + 1⟩ ⟨1, 0, z + 1⟩ = 0 :=
    ((C52_diag_metric (1 : ℝ) one_pos _ _ ⟨1, 0, z + 1⟩).2.2.1).mpr ⟨rfl, rfl⟩
  have hrot : Node.rotation .node ⟨⟨0, 0, z⟩, ⟨-1, 0, z⟩⟩ ⟨⟨1, 0, z + 1⟩, ⟨0, 0, z⟩⟩ = 1 / 2 := by
    unfold Node.rotation
    dsimp only
    rw [(C74_rotation_partial _ _ (Or.inr ⟨by dsimp only; omega, by dsimp only; omega⟩)).1]
    unfold turn45
    dsimp only
    rw [a1, a2, angle_x, angle_x, sub_self (0 : ℝ), hw, if_pos (by unfold Xor; simp)]
    simp
  refine ⟨1 + C.up + C.smooth, 1 + C.up + C.smooth / 4 + C.riskFactor * r, ?_, ?_, ?_, by linarith⟩
  · unfold getHeuristic
    rw [if_neg (by rw [h2]; simp), h3]
    dsimp only
    rw [hd, hf]
    unfold altitudeHeuristic smoothnessHeuristic
    dsimp only
    rw [if_pos (by omega), if_neg (by simp), if_neg (by simp), if_neg (by omega), C01_angleToRange_eq_wrapPi, a1, a2, angle_x, angle_x,
      sub_self (0 : ℝ), hw, h4, h5]
    congr 1
    simp
  · unfold edgeCost
    rw [hr, hrot, Option.map_some]
    congr 1
    unfold edgeDist Cell.dist2D
    rw [pos_sub, pos_sub, pos_sub]
    simp
    ring
  · unfold getHeuristic
    rw [if_neg (by rw [h2]; simp), h3]
    dsimp only
    rw [hd0]
    unfold altitudeHeuristic smoothnessHeuristic
    simp

end Global
end Avoidance
