import Verif.GpNode
import Verif.GpSearchMore
import Verif.GpCellProps
import Mathlib.Tactic.Positivity

/-!
# Search nodes, risk and the path of the planner (C53, C60, C74)
-/

namespace Avoidance
namespace Global

set_option linter.unusedSectionVars false

section
variable {K : Type*} [Field K] [LinearOrder K] [IsStrictOrderedRing K] [FloorRing K]

/-! ## C60: probabilities -/

/-- **C60**: the combination of two probabilities is a probability below 1, it does not depend on the order, and it grows with
both. -/
theorem C60_posterior (p q : K) (hp0 : 0 ≤ p) (hp1 : p ≤ 1) (hq0 : 0 ≤ q) (hq1 : q ≤ 1) :
    0 ≤ posterior p q ∧ posterior p q < 1 ∧ posterior p q = posterior q p ∧
    (∀ q', q ≤ q' → q' ≤ 1 → posterior p q ≤ posterior p q') := by
  have a1 : 0 ≤ p * q := mul_nonneg hp0 hq0
  have a2 : 0 ≤ (1 - p) * (1 - q) := mul_nonneg (by linarith) (by linarith)
  have hd : 0 < p * q + (1 - p) * (1 - q) + 1 / 10000 := by
    have : (0 : K) < 1 / 10000 := by norm_num
    linarith
  refine ⟨div_nonneg a1 hd.le, ?_, ?_, ?_⟩
  · unfold posterior
    rw [div_lt_one hd]
    have : (0 : K) < 1 / 10000 := by norm_num
    linarith
  · unfold posterior
    rw [mul_comm p q, mul_comm (1 - p)]
  · intro q' h1 h2
    have b2 : 0 ≤ (1 - p) * (1 - q') := mul_nonneg (by linarith) (by linarith)
    have hd' : 0 < p * q' + (1 - p) * (1 - q') + 1 / 10000 := by
      have : (0 : K) < 1 / 10000 := by norm_num
      have : 0 ≤ p * q' := mul_nonneg hp0 (by linarith)
      linarith
    unfold posterior
    rw [div_le_div_iff₀ hd hd']
    have e : p * q' * (p * q + (1 - p) * (1 - q) + 1 / 10000) - p * q * (p * q' + (1 - p) * (1 - q') + 1 / 10000) =
        p * (q' - q) * ((1 - p) + 1 / 10000) := by ring
    have : 0 ≤ p * (q' - q) * ((1 - p) + 1 / 10000) := by
      apply mul_nonneg (mul_nonneg hp0 (by linarith))
      have : (0 : K) < 1 / 10000 := by norm_num
      linarith
    linarith

/-- **C60** (violated): the combination with an uninformative 1/2 changes the probability: a value of 1/2 is not neutral
(the constant 0.0001 of the denominator pulls every probability down). -/
theorem C60_posterior_not_neutral (p : K) (hp0 : 0 < p) (hp1 : p ≤ 1) : posterior p (1 / 2) < p := by
  have hd : (0 : K) < p * (1 / 2) + (1 - p) * (1 - 1 / 2) + 1 / 10000 := by
    have e : p * (1 / 2) + (1 - p) * (1 - 1 / 2) + 1 / 10000 = 5001 / (10000 : K) := by ring
    rw [e]; norm_num
  unfold posterior
  rw [div_lt_iff₀ hd]
  have e : p * (p * (1 / 2) + (1 - p) * (1 - 1 / 2) + 1 / 10000) = p * (1 / 2) + p * (1 / 10000) := by ring
  rw [e]
  have : 0 < p * (1 / 10000) := mul_pos hp0 (by norm_num)
  linarith

example : posterior (1/5 : ℚ) (9/10) = 1800/2601 := by decide +kernel

theorem altPriorTable_pos : ∀ p ∈ (altPriorTable : List K), 0 ≤ p ∧ p ≤ 1 := by
  intro p hp
  unfold altPriorTable at hp
  simp only [List.mem_cons, List.not_mem_nil, or_false] at hp
  have : ∀ q : ℚ, 0 ≤ q → q ≤ 1 → (0 : K) ≤ (q : K) ∧ (q : K) ≤ 1 := by
    intro q h1 h2
    exact ⟨by exact_mod_cast h1, by exact_mod_cast h2⟩
  rcases hp with rfl | rfl | rfl | rfl | rfl | rfl | rfl | rfl | rfl | rfl | rfl | rfl | rfl | rfl | rfl | rfl | rfl | rfl |
    rfl | rfl | rfl | rfl | rfl | rfl | rfl <;> constructor <;> norm_num

/-- **C60**: the prior for the altitude of a cell is read from the table for every cell (never outside it), and it is a
probability. -/
theorem C60_altPrior (sc : K) (c : Cell) : altPrior sc c ∈ (altPriorTable : List K) ∧ 0 ≤ altPrior sc c ∧ altPrior sc c ≤ 1 := by
  have h : altPrior sc c ∈ (altPriorTable : List K) := by
    unfold altPrior
    dsimp only
    by_cases hc : roundAway (pos sc c.z) < 0 ∨ (altPriorTable (K := K)).length - 1 < (roundAway (pos sc c.z)).toNat
    · rw [if_pos hc]; exact List.getLast_mem _
    · rw [if_neg hc]
      rw [not_or, not_lt, not_lt] at hc
      have hlen : (altPriorTable (K := K)).length = 25 := rfl
      rw [hlen] at hc
      have hlt : (roundAway (pos sc c.z)).toNat < (altPriorTable (K := K)).length := by rw [hlen]; omega
      rw [List.getD_eq_getElem?_getD, List.getElem?_eq_getElem hlt, Option.getD_some]
      exact List.getElem_mem hlt
  exact ⟨h, altPriorTable_pos _ h⟩

theorem roundAway_centre (z : ℤ) : roundAway (pos (1 : K) z) = if 0 ≤ z then z + 1 else z := by
  unfold roundAway pos
  by_cases hz : 0 ≤ z
  · rw [if_pos hz, if_pos (by have : (0 : K) ≤ (z : K) := by exact_mod_cast hz
                              linarith)]
    rw [show (1 : K) * ((z : K) + 1 / 2) + 1 / 2 = ((z + 1 : ℤ) : K) by push_cast; ring, Int.floor_intCast]
  · rw [if_neg hz, if_neg (by have : (z : K) ≤ ((-1 : ℤ) : K) := by exact_mod_cast (by omega : z ≤ -1)
                              push_cast at this; linarith)]
    rw [show (1 : K) * ((z : K) + 1 / 2) - 1 / 2 = ((z : ℤ) : K) by push_cast; ring, Int.ceil_intCast]

/-- **C60** (violated): below the ground the prior should be that of the ground (1.0, the first entry); because the test is made
in unsigned arithmetic the last entry, 0.001, is returned. -/
theorem C60_altPrior_below_ground_violated (c : Cell) (hz : c.z < 0) :
    altPrior (1 : K) c = 1 / 1000 ∧ altPrior (1 : K) c < (altPriorTable : List K).headD 0 := by
  have e : altPrior (1 : K) c = 1 / 1000 := by
    unfold altPrior
    dsimp only
    rw [roundAway_centre, if_neg (not_le.mpr hz), if_pos (Or.inl hz)]
    rfl
  refine ⟨e, ?_⟩
  rw [e]
  show (1 : K) / 1000 < 1
  norm_num

/-- The assumptions on the parameters: what the configuration allows (cfg/GlobalPlannerNode.cfg). -/
structure GoodWorld (W : RiskWorld K) : Prop where
  prob : ∀ lo, 0 ≤ W.prob lo ∧ W.prob lo ≤ 1
  explore0 : 0 ≤ W.explore
  explore1 : W.explore ≤ 1
  flow : 0 ≤ W.flow

/-- **C60**: the risk of a single cell is between 0 and 1; a cell on or below the ground, and every cell before the first map,
has risk 1. -/
theorem C60_single_risk (sc : K) (W : RiskWorld K) (hW : GoodWorld W) (c : Cell) :
    0 ≤ singleRisk sc W c ∧ singleRisk sc W c ≤ 1 ∧ (c.z < 1 ∨ W.tree = none → singleRisk sc W c = 1) := by
  obtain ⟨_, a0, a1⟩ := C60_altPrior sc c
  have hz1 : (0 : K) ≤ 1 := zero_le_one
  unfold singleRisk
  by_cases hz : c.z < 1
  · rw [if_pos hz]; exact ⟨hz1, le_refl _, fun _ => rfl⟩
  rw [if_neg hz]
  cases W.tree with
  | none => exact ⟨hz1, le_refl _, fun _ => rfl⟩
  | some t =>
    dsimp only
    cases t c with
    | none =>
        dsimp only
        refine ⟨mul_nonneg hW.explore0 a0, ?_, fun h => by rcases h with h | h; exact absurd h hz; simp at h⟩
        have := mul_le_mul hW.explore1 a1 a0 hz1
        linarith
    | some lo =>
        dsimp only
        obtain ⟨p1, p2, _⟩ := C60_posterior _ _ a0 a1 (hW.prob lo).1 (hW.prob lo).2
        split
        · exact ⟨p1, p2.le, fun h => by rcases h with h | h; exact absurd h hz; simp at h⟩
        · refine ⟨mul_nonneg hW.explore0 p1, ?_, fun h => by rcases h with h | h; exact absurd h hz; simp at h⟩
          have := mul_le_mul hW.explore1 p2.le p1 hz1
          linarith

theorem sum_nonneg_of {l : List K} (h : ∀ x ∈ l, 0 ≤ x) : 0 ≤ l.sum := List.sum_nonneg h

/-- **C60**: the risk of a cell is defined exactly if the robot is not larger than one map cell; it is not negative, at least the
cell's own risk (counted once more with the flow factor), and at most `1 + 7 flow`. -/
theorem C60_cell_risk (sc : K) (W : RiskWorld K) (hW : GoodWorld W) (c : Cell) (hr : 0 < W.robotRadius) (hres : 0 < W.resolution) :
    ((∃ r, cellRisk sc W c = some r) ↔ W.robotRadius ≤ W.resolution) ∧
    ∀ r, cellRisk sc W c = some r → (1 + W.flow) * singleRisk sc W c ≤ r ∧ 0 ≤ r ∧ r ≤ 1 + 7 * W.flow := by
  have hc : 0 < ⌈W.robotRadius / W.resolution⌉ := Int.ceil_pos.mpr (div_pos hr hres)
  have hiff : ⌈W.robotRadius / W.resolution⌉ ≤ 1 ↔ W.robotRadius ≤ W.resolution := by
    rw [Int.ceil_le, div_le_iff₀ hres, Int.cast_one, one_mul]
  have hs := fun d => C60_single_risk sc W hW d
  have hf := hW.flow
  unfold cellRisk
  obtain ⟨_, f1, f2⟩ := C52_flow_neighbors c ⌈W.robotRadius / W.resolution⌉ hc.le
  by_cases hle : ⌈W.robotRadius / W.resolution⌉ ≤ 1
  · have h1 : ⌈W.robotRadius / W.resolution⌉ = 1 := by omega
    rw [f1 h1]
    refine ⟨⟨fun _ => hiff.mp hle, fun _ => ⟨_, rfl⟩⟩, fun r hr' => ?_⟩
    rw [Option.map_some, Option.some_inj] at hr'
    rw [← hr']
    simp only [List.map_cons, List.map_nil, List.sum_cons, List.sum_nil, add_zero]
    have m0 := fun d => mul_nonneg hf (hs d).1
    have m1 : ∀ d, W.flow * singleRisk sc W d ≤ W.flow := fun d => by
      have := mul_le_mul_of_nonneg_left (hs d).2.1 hf
      linarith
    have c0 := (hs c).1
    have c1 := (hs c).2.1
    have g1 := m0 ⟨c.x - 1, c.y, c.z⟩
    have g2 := m0 ⟨c.x, c.y - 1, c.z⟩
    have g3 := m0 ⟨c.x, c.y, c.z - 1⟩
    have g4 := m0 c
    have g5 := m0 ⟨c.x, c.y, c.z + 1⟩
    have g6 := m0 ⟨c.x, c.y + 1, c.z⟩
    have g7 := m0 ⟨c.x + 1, c.y, c.z⟩
    have k1 := m1 ⟨c.x - 1, c.y, c.z⟩
    have k2 := m1 ⟨c.x, c.y - 1, c.z⟩
    have k3 := m1 ⟨c.x, c.y, c.z - 1⟩
    have k4 := m1 c
    have k5 := m1 ⟨c.x, c.y, c.z + 1⟩
    have k6 := m1 ⟨c.x, c.y + 1, c.z⟩
    have k7 := m1 ⟨c.x + 1, c.y, c.z⟩
    refine ⟨?_, ?_, ?_⟩
    · rw [add_mul, one_mul]; linarith
    · linarith
    · linarith
  · rw [f2 (by omega)]
    refine ⟨⟨fun h => by obtain ⟨r, h⟩ := h; simp at h, fun h => absurd (hiff.mpr h) hle⟩, fun r h => by simp at h⟩

/-- non-vacuity: a map with one obstacle cell, robot radius 0.5 m, resolution 1 m -/
def exampleWorld : RiskWorld ℚ :=
  { tree := some fun c => if c = ⟨2, 0, 3⟩ then some 3 else some (-2), prob := fun lo => if 0 < lo then 95/100 else 12/100,
    occupied := fun c => decide (c = ⟨2, 0, 3⟩), explore := 5/1000, flow := 1, robotRadius := 1/2, resolution := 1 }

example : GoodWorld exampleWorld :=
  ⟨fun lo => by unfold exampleWorld; dsimp only; split <;> norm_num, by norm_num [exampleWorld], by norm_num [exampleWorld],
    by norm_num [exampleWorld]⟩
example : isOccupied 1 exampleWorld ⟨2, 0, 3⟩ = true ∧ isOccupied 1 exampleWorld ⟨1, 0, 3⟩ = false ∧
    isNearWall 1 exampleWorld ⟨1, 1, 3⟩ = true := by decide +kernel
example : (cellRisk 1 exampleWorld ⟨1, 0, 3⟩).any (fun r => decide (1/2 < r)) = true := by decide +kernel

end

/-! ## The search problem of the planner -/

theorem distSq_eq (sc : ℝ) (a b : Cell) : a.dist3D sc b = Real.sqrt (a.distSq sc b) := rfl

/-- The test with squares is the test of the code. -/
theorem speedNear_iff (sc radius : ℝ) (a b : Cell) : speedNear sc radius a b = true ↔ 0 < a.dist3D sc b ∧ a.dist3D sc b < radius := by
  unfold speedNear
  rw [decide_eq_true_iff, distSq_eq, Real.sqrt_pos]
  constructor
  · rintro ⟨h1, h2, h3⟩
    exact ⟨h1, (Real.sqrt_lt' h2).mpr h3⟩
  · rintro ⟨h1, h2⟩
    have h0 : 0 < radius := lt_of_le_of_lt (Real.sqrt_nonneg _) h2
    exact ⟨h1, h0, (Real.sqrt_lt' h0).mp h2⟩

theorem nodeNeighbors_parent (sc radius : ℝ) (k : NodeKind) (u v : Node) (h : v ∈ nodeNeighbors sc radius k u) : v.parent = u.cell := by
  unfold nodeNeighbors at h
  cases k <;> dsimp only at h
  · rw [List.mem_map] at h; obtain ⟨c, _, rfl⟩ := h; rfl
  · rw [List.mem_map] at h; obtain ⟨c, _, rfl⟩ := h; rfl
  · rcases List.mem_cons.mp h with rfl | h
    · rfl
    · rw [List.mem_map] at h; obtain ⟨c, _, rfl⟩ := h; rfl

theorem nodeKey_cell {k : NodeKind} {a b : Node} (h : nodeKey k a = nodeKey k b) : a.cell = b.cell := by
  unfold nodeKey at h
  cases k <;> exact (Prod.mk.inj h).1

theorem nodeKey_full {k : NodeKind} (hk : k ≠ .withoutSmooth) {a b : Node} (h : nodeKey k a = nodeKey k b) : a = b := by
  obtain ⟨ac, ap⟩ := a
  obtain ⟨bc, bp⟩ := b
  unfold nodeKey at h
  cases k <;> simp_all

theorem mapM_nonneg {l : List Cell} {f : Cell → Option ℝ} (hf : ∀ c r, f c = some r → 0 ≤ r) {o : List ℝ} (h : l.mapM f = some o) :
    ∀ r ∈ o, 0 ≤ r := by
  induction l generalizing o with
  | nil =>
      rw [List.mapM_nil] at h
      have h' : o = [] := (Option.some_inj.mp h).symm
      rw [h']; intro r hr; exact absurd hr (List.not_mem_nil)
  | cons c l ih =>
      rw [List.mapM_cons] at h
      cases hc : f c with
      | none => rw [hc] at h; exact absurd h (by simp)
      | some r0 =>
          rw [hc] at h
          cases hl : l.mapM f with
          | none => rw [hl] at h; exact absurd h (by simp)
          | some o' =>
              rw [hl] at h
              have h' : o = r0 :: o' := (Option.some_inj.mp h).symm
              rw [h']
              intro r hr
              rcases List.mem_cons.mp hr with rfl | hr
              · exact hf c r hc
              · exact ih hl r hr

theorem cellRisk_nonneg (sc : ℝ) (W : RiskWorld ℝ) (hW : GoodWorld W) (c : Cell) (r : ℝ) (h : cellRisk sc W c = some r) : 0 ≤ r := by
  unfold cellRisk at h
  rw [Option.map_eq_some_iff] at h
  obtain ⟨l, _, rfl⟩ := h
  have h1 := (C60_single_risk sc W hW c).1
  have h2 : 0 ≤ (l.map fun n => W.flow * singleRisk sc W n).sum := by
    apply List.sum_nonneg
    intro x hx
    rw [List.mem_map] at hx
    obtain ⟨n, _, rfl⟩ := hx
    exact mul_nonneg hW.flow (C60_single_risk sc W hW n).1
  linarith

theorem nodeRisk_nonneg (sc : ℝ) (W : RiskWorld ℝ) (hW : GoodWorld W) (n : Node) (r : ℝ) (h : nodeRisk sc W n = some r) : 0 ≤ r := by
  unfold nodeRisk at h
  cases hm : (n.cells sc).mapM (cellRisk sc W) with
  | none => rw [hm] at h; exact absurd h (by simp)
  | some l =>
      rw [hm] at h
      dsimp only at h
      split at h
      · exact absurd h (by simp)
      · rw [← Option.some_inj.mp h]
        have h1 : 0 ≤ l.sum := List.sum_nonneg (mapM_nonneg (cellRisk_nonneg sc W hW) hm)
        have h2 : 0 ≤ n.length sc := Real.sqrt_nonneg _
        positivity

/-- The configured costs are not negative (cfg/GlobalPlannerNode.cfg). -/
structure GoodCost (C : CostCfg) : Prop where
  smooth : 0 ≤ C.smooth
  riskFactor : 0 ≤ C.riskFactor
  up : 0 ≤ C.up
  down : 0 ≤ C.down

theorem edgeDist_nonneg (sc : ℝ) (C : CostCfg) (hC : GoodCost C) (u v : Cell) : 0 ≤ edgeDist sc C u v := by
  unfold edgeDist
  have h1 : 0 ≤ u.dist2D sc v := Real.sqrt_nonneg _
  have h2 : 0 ≤ C.up * max (pos sc v.z - pos sc u.z) 0 := mul_nonneg hC.up (le_max_right _ _)
  have h3 : 0 ≤ C.down * max (-(pos sc v.z - pos sc u.z)) 0 := mul_nonneg hC.down (le_max_right _ _)
  linarith

variable (sc radius : ℝ) (W : RiskWorld ℝ) (C : CostCfg) (early : Cell → Bool) (k : NodeKind) (t : GoalCell ℝ)
  (heur : List Node → Node → ℝ) (pick : List ((Node × Bool) × ℝ) → ℕ)

theorem planner_nonneg (hW : GoodWorld W) (hC : GoodCost C) : NonnegCost (plannerProblem sc radius W C early k t heur pick) := by
  intro u v c h
  have h' : edgeCost sc W C early k u v = some c := h
  unfold edgeCost at h'
  rw [Option.map_eq_some_iff] at h'
  obtain ⟨r, hr, rfl⟩ := h'
  have h1 := edgeDist_nonneg sc C hC u.cell v.cell
  have h2 := mul_nonneg hC.riskFactor (nodeRisk_nonneg sc W hW v r hr)
  have h3 : 0 ≤ (if early u.cell = true then (2 : ℝ) else 1) * (C.smooth * (u.rotation k v) ^ 2) := by
    apply mul_nonneg
    · split <;> norm_num
    · exact mul_nonneg hC.smooth (sq_nonneg _)
  linarith

/-- What the planner's search problem calls a move, in terms of cells. -/
theorem planner_step {a b : Node} {c : ℝ} (h : StepTo (plannerProblem sc radius W C early k t heur pick) a b c) :
    isLegal sc W C ⟨b.cell, a.cell⟩ ∧ ∃ v ∈ nodeNeighbors sc radius k a, v.cell = b.cell ∧ v.parent = a.cell := by
  obtain ⟨v, h1, h2, h3, _⟩ := h
  have h1' : v ∈ nodeNeighbors sc radius k a := h1
  have hp := nodeNeighbors_parent sc radius k a v h1'
  have hc : v.cell = b.cell := nodeKey_cell (k := k) h3
  have hl : isLegal sc W C v := by
    classical
    exact of_decide_eq_true h2
  refine ⟨?_, v, h1', hc, hp⟩
  rw [← hc, ← hp]
  exact hl

/-- Equal nodes are interchangeable for the planner. -/
theorem planner_cong : KeyCong (plannerProblem sc radius W C early k t heur pick) := by
  constructor
  · intro a a' b c hk hs
    by_cases hkind : k = .withoutSmooth
    · subst hkind
      have hcell : a.cell = a'.cell := nodeKey_cell (k := .withoutSmooth) hk
      obtain ⟨v, h1, h2, h3, h4⟩ := hs
      refine ⟨v, ?_, h2, h3, ?_⟩
      · show v ∈ nodeNeighbors sc radius .withoutSmooth a'
        have h1' : v ∈ nodeNeighbors sc radius .withoutSmooth a := h1
        unfold nodeNeighbors at h1' ⊢
        dsimp only at h1' ⊢
        rw [← hcell]; exact h1'
      · show edgeCost sc W C early .withoutSmooth a' v = some c
        have h4' : edgeCost sc W C early .withoutSmooth a v = some c := h4
        unfold edgeCost at h4' ⊢
        rw [← hcell]
        exact h4'
    · have : a = a' := nodeKey_full hkind hk
      rw [← this]; exact hs
  · intro a a' hk
    have : a.cell = a'.cell := nodeKey_cell (k := k) hk
    show decide (t.withinPlan sc a.cell) = decide (t.withinPlan sc a'.cell)
    rw [this]

theorem PathCost.isChain {ν κ K : Type*} [DecidableEq κ] [Field K] [LinearOrder K] [IsStrictOrderedRing K] {P : Problem ν κ K}
    {l : List ν} {t : K} (h : PathCost P l t) : l.IsChain (fun a b => ∃ c, StepTo P a b c) := by
  induction h with
  | single a => exact List.isChain_singleton a
  | cons hs _ ih => exact List.isChain_cons_cons.mpr ⟨⟨_, hs⟩, ih⟩

theorem isChain_map_of {α β : Type*} {R : α → α → Prop} {S : β → β → Prop} {f : α → β} (h : ∀ a b, R a b → S (f a) (f b)) {l : List α}
    (hl : l.IsChain R) : (l.map f).IsChain S := by
  rw [List.isChain_map]
  exact hl.imp (fun a b hab => h a b hab)

/-- **C53**, for the planner itself and every node type, heuristic and order of the queue. Whenever the search reports a path,
the reported cells are the parent of the start, the start cell and further cells such that every edge after the start is legal
(below the maximum altitude, risk below the maximum) and leads to a neighbour; the last cell lies within the goal's plan
radius. -/
theorem C53_planner_path (hW : GoodWorld W) (hC : GoodCost C) (s : Node) (max n : ℕ) {path : List Node} {it : ℕ}
    (h : findSmoothPath (plannerProblem sc radius W C early k t heur pick) s max n = some (some path, it)) :
    ∃ rest, pathCells s path = s.parent :: s.cell :: rest ∧
      (s.cell :: rest).IsChain (fun a b => isLegal sc W C ⟨b, a⟩ ∧ (k ≠ .speed → b ∈ a.neighbors)) ∧
      t.withinPlan sc ((s.cell :: rest).getLast (List.cons_ne_nil _ _)) := by
  obtain ⟨⟨c, hpc⟩, hhd, ⟨g, hlast, hgoal⟩, _⟩ := C53_path_legal _ (planner_nonneg sc radius W C early k t heur pick hW hC) s max n h
  cases path with
  | nil => exact absurd hhd (by simp)
  | cons s' rest =>
      rw [List.head?_cons, Option.some_inj] at hhd
      subst hhd
      refine ⟨rest.map Node.cell, rfl, ?_, ?_⟩
      · have := isChain_map_of (f := Node.cell) (S := fun a b => isLegal sc W C ⟨b, a⟩ ∧ (k ≠ .speed → b ∈ a.neighbors)) (fun a b hab => by
          obtain ⟨c, hab⟩ := hab
          obtain ⟨hl, v, hv, hv1, _⟩ := planner_step sc radius W C early k t heur pick hab
          refine ⟨hl, fun hk => ?_⟩
          unfold nodeNeighbors at hv
          rw [← hv1]
          cases k <;> dsimp only at hv
          · rw [List.mem_map] at hv; obtain ⟨w, hw, rfl⟩ := hv; exact hw
          · rw [List.mem_map] at hv; obtain ⟨w, hw, rfl⟩ := hv; exact hw
          · exact absurd rfl hk) hpc.isChain
        exact this
      · have hg : t.withinPlan sc g.cell := of_decide_eq_true hgoal
        have e : (s'.cell :: rest.map Node.cell).getLast (List.cons_ne_nil _ _) = g.cell := by
          have h1 : ((s' :: rest).map Node.cell).getLast? = some g.cell := by
            rw [List.getLast?_map, hlast]; rfl
          rw [List.map_cons] at h1
          rw [List.getLast?_eq_some_getLast (List.cons_ne_nil _ _), Option.some_inj] at h1
          exact h1
        rw [e]; exact hg

/-- **C53**: every cell of the reported path after the start lies below the maximum altitude. -/
theorem C53_planner_altitude (hW : GoodWorld W) (hC : GoodCost C) (s : Node) (max n : ℕ) {path : List Node} {it : ℕ}
    (h : findSmoothPath (plannerProblem sc radius W C early k t heur pick) s max n = some (some path, it)) :
    ∀ c ∈ (pathCells s path).tail.tail, pos sc c.z < (C.maxAltitude : ℝ) := by
  obtain ⟨rest, h1, h2, h3⟩ := C53_planner_path sc radius W C early k t heur pick hW hC s max n h
  clear h3
  rw [h1, List.tail_cons, List.tail_cons]
  generalize s.cell = a at h2
  clear h1 h
  induction rest generalizing a with
  | nil => intro c hc; exact absurd hc (List.not_mem_nil)
  | cons b rest ih =>
      rw [List.isChain_cons_cons] at h2
      intro c hc
      rcases List.mem_cons.mp hc with rfl | hc
      · exact h2.1.1.1
      · exact ih b h2.2 c hc

/-- **C72**, for the planner: if the search fails before its iterations are used up, no sequence of legal moves leads to the
goal. -/
theorem C72_planner_complete (hW : GoodWorld W) (hC : GoodCost C) (s : Node) (max n : ℕ) {it : ℕ}
    (h : findSmoothPath (plannerProblem sc radius W C early k t heur pick) s max n = some (none, it)) (hit : it < max) :
    ¬ ∃ l c g, PathCost (plannerProblem sc radius W C early k t heur pick) l c ∧ l.head? = some s ∧ l.getLast? = some g ∧
      t.withinPlan sc g.cell := by
  have := C72_search_complete _ (planner_nonneg sc radius W C early k t heur pick hW hC)
    (planner_cong sc radius W C early k t heur pick) s max n h hit
  rintro ⟨l, c, g, h1, h2, h3, h4⟩
  exact this ⟨l, c, g, h1, h2, h3, decide_eq_true h4⟩

end Global
end Avoidance
