import Verif.GpMoves
import Verif.GpHeurProps
import Verif.GpEdgeProps

/-!
# The moves of the global planner and their cost (C60, C74, C83)
-/

namespace Avoidance
namespace Global

set_option linter.unusedSectionVars false

/-! ## Risk (C60) -/

section
variable {K : Type*} [Field K] [LinearOrder K] [IsStrictOrderedRing K] [FloorRing K]

/-- **C60**: the risk of a single cell above the ground, once there is a map. The map's probability of an obstacle `q` and the
prior `p` of the altitude combine to `pq / (pq + (1-p)(1-q) + 0.0001)`; this is the risk if an obstacle was seen in the cell or the map
takes the cell for occupied; a cell the map takes for free has the fraction `explore` of it, and a cell the map does not know the fraction
`explore` of the prior. -/
theorem C60_risk_law (sc : K) (W : RiskWorld K) (c : Cell) (hz : 1 ≤ c.z) (t : Cell → Option K) (ht : W.tree = some t) :
    (∀ lo, t c = some lo → (W.occupied c = true ∨ 0 < lo) →
      singleRisk sc W c = altPrior sc c * W.prob lo / (altPrior sc c * W.prob lo + (1 - altPrior sc c) * (1 - W.prob lo) + 1 / 10000)) ∧
    (∀ lo, t c = some lo → W.occupied c = false → lo ≤ 0 →
      singleRisk sc W c = W.explore *
        (altPrior sc c * W.prob lo / (altPrior sc c * W.prob lo + (1 - altPrior sc c) * (1 - W.prob lo) + 1 / 10000))) ∧
    (t c = none → singleRisk sc W c = W.explore * altPrior sc c) := by
  refine ⟨fun lo h ho => ?_, fun lo h ho hl => ?_, fun h => ?_⟩ <;> unfold singleRisk <;> rw [if_neg (by omega), ht] <;> dsimp only <;> rw [h] <;> dsimp only
  · rw [if_pos ho]; rfl
  · rw [if_neg (by rintro (h1 | h1); · rw [ho] at h1; exact absurd h1 (by simp)
                   · exact absurd h1 (not_lt.mpr hl))]; rfl

/-- The priors by altitude, in metres from 0 to 24: certain collision on the ground, then 0.2, 0.1333, 0.1, 0.0833, 0.05, 0.033, 0.025,
0.0166, 0.0125, and 0.001 from 10 m upwards. -/
def statedPriors : List K :=
  [1, 2/10, 1333/10000, 1/10, 833/10000, 5/100, 33/1000, 25/1000, 166/10000, 125/10000] ++ List.replicate 15 (1/1000)

/-- **C60**: the prior of a cell above the ground (cell size 1) is the entry of the table for its layer: the cell of index `z` has the entry
`z + 1` (its centre, at `z + 1/2`, is rounded up), the last one for all higher layers; and it never grows with altitude. -/
theorem C60_prior_law (c d : Cell) (hc : 0 ≤ c.z) :
    (statedPriors (K := K))[min (c.z.toNat + 1) 24]? = some (altPrior (1 : K) c) ∧ (c.z ≤ d.z → altPrior (1 : K) d ≤ altPrior (1 : K) c) := by
  rw [show statedPriors (K := K) = altPriorTable by unfold statedPriors altPriorTable; simp only [List.replicate, List.cons_append, List.nil_append]]
  have hval : ∀ e : Cell, 0 ≤ e.z → (altPriorTable (K := K))[min (e.z.toNat + 1) 24]? = some (altPrior (1 : K) e) := by
    intro e he
    unfold altPrior
    rw [roundAway_centre, if_pos he]
    dsimp only
    by_cases h : e.z + 1 < 25
    · have h1 : ¬ (e.z + 1 < 0 ∨ (altPriorTable (K := K)).length - 1 < (e.z + 1).toNat) := by
        have : (altPriorTable (K := K)).length = 25 := rfl
        rw [this]; omega
      rw [if_neg h1]
      have h2 : min (e.z.toNat + 1) 24 = (e.z + 1).toNat := by omega
      rw [h2, List.getD_eq_getElem?_getD]
      have h3 : (e.z + 1).toNat < (altPriorTable (K := K)).length := by
        have : (altPriorTable (K := K)).length = 25 := rfl
        rw [this]; omega
      rw [List.getElem?_eq_getElem h3]; rfl
    · have h1 : e.z + 1 < 0 ∨ (altPriorTable (K := K)).length - 1 < (e.z + 1).toNat := by
        have : (altPriorTable (K := K)).length = 25 := rfl
        rw [this]; omega
      rw [if_pos h1]
      have h2 : min (e.z.toNat + 1) 24 = 24 := by omega
      rw [h2]; rfl
  refine ⟨hval c hc, fun hcd => ?_⟩
  have h1 := hval c hc
  have h2 := hval d (by omega)
  have hle : min (c.z.toNat + 1) 24 ≤ min (d.z.toNat + 1) 24 := by omega
  have hs : (altPriorTable (K := K)).Pairwise (fun a b => b ≤ a) := by
    unfold altPriorTable
    simp only [List.pairwise_cons, List.mem_cons, List.not_mem_nil, or_false, forall_eq_or_imp, forall_eq, List.Pairwise.nil, and_true,
      IsEmpty.forall_iff, implies_true]
    norm_num
  rcases Nat.lt_or_ge (min (c.z.toNat + 1) 24) (min (d.z.toNat + 1) 24) with hlt | hge
  · obtain ⟨l1, e1⟩ := List.getElem?_eq_some_iff.mp h1
    obtain ⟨l2, e2⟩ := List.getElem?_eq_some_iff.mp h2
    rw [← e1, ← e2]
    exact List.pairwise_iff_getElem.mp hs _ _ l1 l2 hlt
  · have : min (c.z.toNat + 1) 24 = min (d.z.toNat + 1) 24 := by omega
    rw [this, h2, Option.some_inj] at h1
    rw [h1]

/-- **C60**: more evidence of an obstacle never lowers the risk of a cell: a map with larger log-odds in the cell, or the same map and an
obstacle point in it, gives at least the same risk. -/
theorem C60_risk_monotone (sc : K) (W W' : RiskWorld K) (hW : GoodWorld W) (c : Cell) (hp : W'.prob = W.prob) (he : W'.explore = W.explore)
    (hmono : ∀ a b, a ≤ b → W.prob a ≤ W.prob b) (t t' : Cell → Option K) (ht : W.tree = some t) (ht' : W'.tree = some t') (lo lo' : K)
    (hlo : t c = some lo) (hlo' : t' c = some lo') (hle : lo ≤ lo') (hocc : W.occupied c = true → W'.occupied c = true) :
    singleRisk sc W c ≤ singleRisk sc W' c := by
  by_cases hz : c.z < 1
  · unfold singleRisk; rw [if_pos hz, if_pos hz]
  obtain ⟨_, a0, a1⟩ := C60_altPrior sc c
  obtain ⟨q0, q1⟩ := hW.prob lo
  obtain ⟨q0', q1'⟩ := hW.prob lo'
  obtain ⟨p0, _, _, pm⟩ := C60_posterior (altPrior sc c) (W.prob lo) a0 a1 q0 q1
  obtain ⟨p0', _, _, _⟩ := C60_posterior (altPrior sc c) (W.prob lo') a0 a1 q0' q1'
  have hpm := pm (W.prob lo') (hmono _ _ hle) q1'
  unfold singleRisk
  rw [if_neg hz, if_neg hz, ht, ht']
  dsimp only
  rw [hlo, hlo']
  dsimp only
  rw [hp, he]
  have x0 := hW.explore0
  have x1 := hW.explore1
  by_cases h : W.occupied c = true ∨ 0 < lo
  · have h' : W'.occupied c = true ∨ 0 < lo' := by
      rcases h with h | h
      · exact Or.inl (hocc h)
      · exact Or.inr (lt_of_lt_of_le h hle)
    rw [if_pos h, if_pos h']; exact hpm
  · rw [if_neg h]
    split
    · nlinarith
    · exact mul_le_mul_of_nonneg_left hpm x0

/-- **C60**: the risk of a cell (robot not larger than a map cell): its own risk, and the flow factor times the risks of the cell itself and
of the six cells that share a face with it. -/
theorem C60_cell_risk_law (sc : K) (W : RiskWorld K) (c : Cell) (hr : 0 < W.robotRadius) (hres : W.robotRadius ≤ W.resolution) :
    cellRisk sc W c = some ((1 + W.flow) * singleRisk sc W c + W.flow * (singleRisk sc W ⟨c.x + 1, c.y, c.z⟩ + singleRisk sc W ⟨c.x - 1, c.y, c.z⟩ +
      singleRisk sc W ⟨c.x, c.y + 1, c.z⟩ + singleRisk sc W ⟨c.x, c.y - 1, c.z⟩ + singleRisk sc W ⟨c.x, c.y, c.z + 1⟩ +
      singleRisk sc W ⟨c.x, c.y, c.z - 1⟩)) := by
  have h0 : 0 < W.resolution := lt_of_lt_of_le hr hres
  have hc : 0 < ⌈W.robotRadius / W.resolution⌉ := Int.ceil_pos.mpr (div_pos hr h0)
  have h1 : ⌈W.robotRadius / W.resolution⌉ = 1 := by
    have : ⌈W.robotRadius / W.resolution⌉ ≤ 1 := by rw [Int.ceil_le, div_le_iff₀ h0, Int.cast_one, one_mul]; exact hres
    omega
  unfold cellRisk
  rw [(C52_flow_neighbors c _ hc.le).2.1 h1, Option.map_some, Option.some_inj]
  simp only [List.map_cons, List.map_nil, List.sum_cons, List.sum_nil]
  ring

end

/-! ## Moves (C83) -/

/-- **Specification**: the move from the node `u` to the cell `c` that the planner considers. Without speed: to an adjacent cell. With speed:
repeating the last displacement, or ending next to where that would end, but not in the present cell and closer than `radius`. -/
def Offered (sc radius : ℝ) (k : NodeKind) (u : Node) (c : Cell) : Prop :=
  match k with
  | .speed => c = (u.cell.sub u.parent).add u.cell ∨
      (Adjacent ((u.cell.sub u.parent).add u.cell) c ∧ 0 < u.cell.dist3D sc c ∧ u.cell.dist3D sc c < radius)
  | _ => Adjacent u.cell c

/-- **C83**: the moves offered to the search are exactly those, and each remembers where it came from. -/
theorem C83_offered (sc radius : ℝ) (k : NodeKind) (u v : Node) :
    v ∈ nodeNeighbors sc radius k u ↔ v.parent = u.cell ∧ Offered sc radius k u v.cell := by
  obtain ⟨vc, vp⟩ := v
  unfold nodeNeighbors Offered
  cases k with
  | node =>
      dsimp only
      rw [List.mem_map]
      constructor
      · rintro ⟨c, hc, he⟩
        rw [Node.mk.injEq] at he
        obtain ⟨rfl, rfl⟩ := he
        exact ⟨rfl, (C52_neighbors _ _).1.mp hc⟩
      · rintro ⟨rfl, h⟩
        exact ⟨vc, (C52_neighbors _ _).1.mpr h, rfl⟩
  | withoutSmooth =>
      dsimp only
      rw [List.mem_map]
      constructor
      · rintro ⟨c, hc, he⟩
        rw [Node.mk.injEq] at he
        obtain ⟨rfl, rfl⟩ := he
        exact ⟨rfl, (C52_neighbors _ _).1.mp hc⟩
      · rintro ⟨rfl, h⟩
        exact ⟨vc, (C52_neighbors _ _).1.mpr h, rfl⟩
  | speed =>
      dsimp only
      rw [List.mem_cons, List.mem_map]
      constructor
      · rintro (he | ⟨c, hc, he⟩)
        · rw [Node.mk.injEq] at he
          exact ⟨he.2, Or.inl he.1⟩
        · rw [Node.mk.injEq] at he
          obtain ⟨rfl, rfl⟩ := he
          rw [List.mem_filter, speedNear_iff] at hc
          exact ⟨rfl, Or.inr ⟨(C52_neighbors _ _).1.mp hc.1, hc.2⟩⟩
      · rintro ⟨rfl, h | ⟨h1, h2⟩⟩
        · left; rw [h]
        · right
          exact ⟨vc, List.mem_filter.mpr ⟨(C52_neighbors _ _).1.mpr h1, (speedNear_iff _ _ _ _).mpr h2⟩, rfl⟩

/-- **Specification**: the cells a move is judged by: the segment is sampled twice per cell (of the longest axis), the start excluded, and
around every sample the four cells are taken that contain the points 0.1 m to the sides. -/
def Examined (sc : ℝ) (n : Node) (c : Cell) : Prop :=
  ∃ i : ℕ, 1 ≤ i ∧ i ≤ n.steps ∧ ∃ dx dy : ℝ, (dx = 1 / 10 ∨ dx = -(1 / 10)) ∧ (dy = 1 / 10 ∨ dy = -(1 / 10)) ∧
    InBox sc c ⟨pos sc n.parent.x + (pos sc n.cell.x - pos sc n.parent.x) * (i / n.steps) + dx,
      pos sc n.parent.y + (pos sc n.cell.y - pos sc n.parent.y) * (i / n.steps) + dy,
      pos sc n.parent.z + (pos sc n.cell.z - pos sc n.parent.z) * (i / n.steps)⟩

theorem sample_eq (sc : ℝ) (p c : ℤ) (s i : ℕ) : sampleAxis sc p c s i = pos sc p + (pos sc c - pos sc p) * ((i : ℝ) / (s : ℝ)) := by
  unfold sampleAxis
  ring

/-- **C83**: the cells looked at for a move are exactly those, each once. -/
theorem C83_examined (sc : ℝ) (hs : 0 < sc) (n : Node) (c : Cell) : (c ∈ n.cells sc ↔ Examined sc n c) ∧ (n.cells sc).Nodup := by
  have hsub : ∀ a : ℝ, a - 1 / 10 = a + -(1 / 10) := fun a => sub_eq_add_neg _ _
  refine ⟨?_, List.nodup_dedup _⟩
  unfold Node.cells Examined
  rw [List.mem_dedup, List.mem_flatten]
  constructor
  · rintro ⟨l, hl, hc⟩
    rw [List.mem_map] at hl
    obtain ⟨i, hi, rfl⟩ := hl
    rw [List.mem_range] at hi
    refine ⟨i + 1, by omega, by omega, ?_⟩
    unfold cellsAt at hc
    simp only [List.mem_cons, List.not_mem_nil, or_false] at hc
    simp only [sample_eq, hsub] at hc
    rcases hc with rfl | rfl | rfl | rfl
    · exact ⟨1 / 10, 1 / 10, Or.inl rfl, Or.inl rfl, (C52_cell_unique sc hs _ _).mp rfl⟩
    · exact ⟨1 / 10, -(1 / 10), Or.inl rfl, Or.inr rfl, (C52_cell_unique sc hs _ _).mp rfl⟩
    · exact ⟨-(1 / 10), 1 / 10, Or.inr rfl, Or.inl rfl, (C52_cell_unique sc hs _ _).mp rfl⟩
    · exact ⟨-(1 / 10), -(1 / 10), Or.inr rfl, Or.inr rfl, (C52_cell_unique sc hs _ _).mp rfl⟩
  · rintro ⟨i, h1, h2, dx, dy, hx, hy, hbox⟩
    obtain ⟨i, rfl⟩ : ∃ j, i = j + 1 := ⟨i - 1, by omega⟩
    refine ⟨_, List.mem_map.mpr ⟨i, List.mem_range.mpr (by omega), rfl⟩, ?_⟩
    have hcell := (C52_cell_unique sc hs _ _).mpr hbox
    unfold cellsAt
    simp only [List.mem_cons, List.not_mem_nil, or_false]
    simp only [sample_eq, hsub]
    rw [← hcell]
    rcases hx with rfl | rfl <;> rcases hy with rfl | rfl
    · exact Or.inl rfl
    · exact Or.inr (Or.inl rfl)
    · exact Or.inr (Or.inr (Or.inl rfl))
    · exact Or.inr (Or.inr (Or.inr rfl))

theorem mapM_sum {f : Cell → Option ℝ} {g : Cell → ℝ} : ∀ (l : List Cell), (∀ c ∈ l, f c = some (g c)) → l.mapM f = some (l.map g)
  | [], _ => rfl
  | c :: l, h => by
      rw [List.mapM_cons, h c (by simp), mapM_sum l (fun d hd => h d (by simp [hd]))]
      rfl

theorem cells_ne_nil (sc : ℝ) (n : Node) (h : n.cell ≠ n.parent) : (n.cells sc).length ≠ 0 := by
  have hst : 0 < n.steps := by
    unfold Node.steps
    by_contra h0
    have : (n.cell.x - n.parent.x).natAbs = 0 ∧ (n.cell.y - n.parent.y).natAbs = 0 ∧ (n.cell.z - n.parent.z).natAbs = 0 := by omega
    apply h
    obtain ⟨⟨cx, cy, cz⟩, ⟨px, py, pz⟩⟩ := n
    dsimp only at this
    rw [Cell.mk.injEq]
    omega
  intro h0
  have hnil := List.eq_nil_of_length_eq_zero h0
  have hm : (cellsAt sc (sampleAxis sc n.parent.x n.cell.x n.steps 1) (sampleAxis sc n.parent.y n.cell.y n.steps 1)
      (sampleAxis sc n.parent.z n.cell.z n.steps 1)).head (by simp [cellsAt]) ∈ n.cells sc := by
    unfold Node.cells
    rw [List.mem_dedup, List.mem_flatten]
    refine ⟨_, List.mem_map.mpr ⟨0, List.mem_range.mpr hst, rfl⟩, List.head_mem _⟩
  rw [hnil] at hm
  exact absurd hm List.not_mem_nil

/-- **C83**: the risk of a move (robot not larger than a map cell) is the average risk of the cells examined times the length of the move; it
is defined for every move that changes the cell, and a NaN otherwise. -/
theorem C83_risk (sc : ℝ) (W : RiskWorld ℝ) (hr : 0 < W.robotRadius) (hres : W.robotRadius ≤ W.resolution) (n : Node) :
    (n.cell ≠ n.parent → nodeRisk sc W n = some ((((n.cells sc).map fun c => (cellRisk sc W c).getD 0).sum / (n.cells sc).length) * n.parent.dist3D sc n.cell)) ∧
    (n.cell = n.parent → nodeRisk sc W n = none) := by
  have hm : (n.cells sc).mapM (cellRisk sc W) = some ((n.cells sc).map fun c => (cellRisk sc W c).getD 0) :=
    mapM_sum _ (fun c _ => by rw [C60_cell_risk_law sc W c hr hres]; rfl)
  unfold nodeRisk
  rw [hm]
  dsimp only
  refine ⟨fun h => ?_, fun h => ?_⟩
  · rw [if_neg (cells_ne_nil sc n h)]; rfl
  · rw [if_pos]
    have : n.steps = 0 := by
      unfold Node.steps; rw [h]; simp
    unfold Node.cells
    rw [this]
    rfl

/-- **C83**: which moves are accepted: exactly those that end below the maximum altitude (with the centre of the cell) and whose
risk is below the maximum (a move that stays in its cell is never accepted). -/
theorem C83_accepted (sc : ℝ) (W : RiskWorld ℝ) (hr : 0 < W.robotRadius) (hres : W.robotRadius ≤ W.resolution) (C : CostCfg) (n : Node) :
    isLegal sc W C n ↔ n.cell ≠ n.parent ∧ pos sc n.cell.z < (C.maxAltitude : ℝ) ∧
      (((n.cells sc).map fun c => (cellRisk sc W c).getD 0).sum / (n.cells sc).length) * n.parent.dist3D sc n.cell < C.maxCellRisk := by
  obtain ⟨h1, h2⟩ := C83_risk sc W hr hres n
  unfold isLegal
  by_cases h : n.cell = n.parent
  · rw [h2 h]; simp [h]
  · rw [h1 h]; simp [h]

/-- **C83**: what a move costs: the horizontal distance, the climb times the cost of climbing or the descent times the cost of descending, the
risk times the risk factor, and the square of the turn times the smoothness factor - twice that if the vehicle is faster than 1 m/s and the
move starts within 3 m of it. Without a smooth node type, turns are free. -/
theorem C83_cost (sc : ℝ) (W : RiskWorld ℝ) (C : CostCfg) (here vel : V3 ℝ) (k : NodeKind) (u v : Node) (r : ℝ) (hv : nodeRisk sc W v = some r) :
    ∃ climb descent turn f : ℝ, climb = max (pos sc v.cell.z - pos sc u.cell.z) 0 ∧ descent = max (pos sc u.cell.z - pos sc v.cell.z) 0 ∧
      turn = (match k with
        | .withoutSmooth => 0
        | _ => u.xyRotation v + (if (u.cell.z = u.parent.z) = (v.cell.z = v.parent.z) then 0 else 1 / 2)) ∧
      ((u.cell.dist3D sc (cellOf sc here) < 3 ∧ 1 < vel.norm → f = 2) ∧ (¬ (u.cell.dist3D sc (cellOf sc here) < 3 ∧ 1 < vel.norm) → f = 1)) ∧
      edgeCost sc W C (earlyTurn sc here vel) k u v =
        some (u.cell.dist2D sc v.cell + C.up * climb + C.down * descent + C.riskFactor * r + f * (C.smooth * turn ^ 2)) := by
  refine ⟨_, _, _, if earlyTurn sc here vel u.cell = true then 2 else 1, rfl, rfl, rfl, ⟨fun h => ?_, fun h => ?_⟩, ?_⟩
  · rw [if_pos]; unfold earlyTurn; exact decide_eq_true h
  · rw [if_neg]; unfold earlyTurn; simpa using h
  · unfold edgeCost
    rw [hv, Option.map_some, Option.some_inj]
    unfold edgeDist
    have hrot : u.rotation k v = (match k with
        | .withoutSmooth => 0
        | _ => u.xyRotation v + (if (u.cell.z = u.parent.z) = (v.cell.z = v.parent.z) then 0 else 1 / 2)) := by
      have hx : (Xor (u.cell.z - u.parent.z = 0) (v.cell.z - v.parent.z = 0)) ↔ ¬ ((u.cell.z = u.parent.z) = (v.cell.z = v.parent.z)) := by
        rw [sub_eq_zero, sub_eq_zero, eq_iff_iff]
        unfold Xor
        tauto
      unfold Node.rotation
      cases k
      · dsimp only
        by_cases h : (u.cell.z = u.parent.z) = (v.cell.z = v.parent.z)
        · rw [if_pos h, if_neg (fun hh => hx.mp hh h), zero_add, add_zero]
        · rw [if_neg h, if_pos (hx.mpr h), add_comm]
      · rfl
      · dsimp only
        by_cases h : (u.cell.z = u.parent.z) = (v.cell.z = v.parent.z)
        · rw [if_pos h, if_neg (fun hh => hx.mp hh h), zero_add, add_zero]
        · rw [if_neg h, if_pos (hx.mpr h), add_comm]
    rw [hrot, neg_sub]

/-! ## The summary of a path -/

variable (sc radius : ℝ) (W : RiskWorld ℝ) (C : CostCfg) (early : Cell → Bool) (t : GoalCell ℝ)
  (heur : List Node → Node → ℝ) (pick : List ((Node × Bool) × ℝ) → ℕ)

theorem pathInfo_cost {l : List Node} {c : ℝ} (h : PathCost (plannerProblem sc radius W C early .node t heur pick) l c) :
    ∀ s, l.head? = some s → (pathInfo sc W C early (pathCells s l)).cost = some c ∧ (pathInfo sc W C early (pathCells s l)).blocked = false := by
  induction h with
  | single a => intro s _; exact ⟨rfl, rfl⟩
  | @cons a b l c0 t0 hs hp ih =>
      intro s hh
      rw [List.head?_cons, Option.some_inj] at hh
      subst hh
      obtain ⟨i1, i2⟩ := ih b rfl
      obtain ⟨v, h1, h2, h3, h4⟩ := hs
      have hpar := nodeNeighbors_parent sc radius .node a v h1
      have hvb : v = b := nodeKey_full (k := .node) (by simp) h3
      subst hvb
      have hb : v = ⟨v.cell, a.cell⟩ := by rw [← hpar]
      have ha : a = ⟨a.cell, a.parent⟩ := rfl
      have hcost : edgeCost sc W C early .node ⟨a.cell, a.parent⟩ ⟨v.cell, a.cell⟩ = some c0 := by rw [← hb]; exact h4
      have hleg : isLegal sc W C v := by
        classical
        exact of_decide_eq_true h2
      obtain ⟨_, r, hr, hlt⟩ := hleg
      rw [hb] at hr
      have hpc : pathCells v (v :: l) = a.cell :: v.cell :: l.map Node.cell := by
        unfold pathCells
        rw [hpar]
        rfl
      rw [hpc] at i1 i2
      have e : pathCells a (a :: v :: l) = a.parent :: a.cell :: v.cell :: l.map Node.cell := rfl
      rw [e]
      unfold pathInfo
      dsimp only
      rw [i1, i2]
      constructor
      · show (match (edgeInfo sc W C early a.parent a.cell v.cell).cost, some t0 with
          | some x, some y => some (x + y)
          | _, _ => none) = _
        unfold edgeInfo
        dsimp only
        rw [hcost]
      · unfold edgeInfo
        dsimp only
        rw [hr]
        dsimp only
        rw [decide_eq_false (not_lt.mpr (le_of_lt hlt))]
        rfl

/-- **C83**: the cost reported for a path the search (with the default node type) has found is the sum of the costs of its moves, the quantity
the search minimises; and such a path is never reported as blocked in the map it was planned in. -/
theorem C83_summary (hW : GoodWorld W) (hC : GoodCost C) (s : Node) (max n : ℕ) {path : List Node} {it : ℕ}
    (h : findSmoothPath (plannerProblem sc radius W C early .node t heur pick) s max n = some (some path, it)) :
    ∃ c, PathCost (plannerProblem sc radius W C early .node t heur pick) path c ∧
      (pathInfo sc W C early (pathCells s path)).cost = some c ∧ (pathInfo sc W C early (pathCells s path)).blocked = false := by
  obtain ⟨⟨c, hc⟩, hh, _⟩ := C53_path_legal _ (planner_nonneg sc radius W C early .node t heur pick hW hC) s max n h
  exact ⟨c, hc, pathInfo_cost sc radius W C early t heur pick hc s hh⟩

/-- **C83**: without early turns the reported cost is the sum of the reported distance, risk and smoothness, for every path whose moves have a
defined risk. -/
theorem C83_summary_adds_up (path : List Cell) (c : ℝ) (h : (pathInfo sc W C (fun _ => false) path).cost = some c) :
    ∃ r, (pathInfo sc W C (fun _ => false) path).risk = some r ∧
      c = (pathInfo sc W C (fun _ => false) path).dist + r + (pathInfo sc W C (fun _ => false) path).smoothness := by
  induction path generalizing c with
  | nil =>
      have : c = 0 := (Option.some_inj.mp h).symm
      exact ⟨0, rfl, by rw [this]; show (0 : ℝ) = 0 + 0 + 0; norm_num⟩
  | cons a path ih =>
      match path, ih, h with
      | [], _, h =>
          have : c = 0 := (Option.some_inj.mp h).symm
          exact ⟨0, rfl, by rw [this]; show (0 : ℝ) = 0 + 0 + 0; norm_num⟩
      | [b], _, h =>
          have : c = 0 := (Option.some_inj.mp h).symm
          exact ⟨0, rfl, by rw [this]; show (0 : ℝ) = 0 + 0 + 0; norm_num⟩
      | b :: d :: rest, ih, h =>
          unfold pathInfo at h ⊢
          dsimp only at h ⊢
          cases hr : nodeRisk sc W ⟨d, b⟩ with
          | none => unfold edgeInfo edgeCost at h; rw [hr] at h; simp at h
          | some r0 =>
              cases hp : (pathInfo sc W C (fun _ => false) (b :: d :: rest)).cost with
              | none => rw [hp] at h; unfold edgeInfo edgeCost at h; rw [hr] at h; simp at h
              | some c1 =>
                  obtain ⟨r1, e1, e2⟩ := ih c1 hp
                  rw [hp] at h
                  rw [e1]
                  unfold edgeInfo edgeCost at h
                  unfold edgeInfo
                  dsimp only at h ⊢
                  rw [hr] at h ⊢
                  simp only [Option.map_some, Option.some_inj] at h ⊢
                  refine ⟨_, rfl, ?_⟩
                  rw [← h, e2]
                  simp
                  ring

/-- **C83**: the risks published with a path are the risks of its cells. -/
theorem C83_published_risks (hs : 0 < sc) (path : List Cell) : pathRisks sc W path = path.map (cellRisk sc W) := by
  unfold pathRisks
  refine List.map_congr_left (fun c _ => ?_)
  rw [(C52_centre sc hs c).1]

/-! ## Non-vacuity -/

/-- the hypotheses on the world hold for the world with one obstacle, whose moves have a defined risk -/
example : ∃ r, nodeRisk 1 (oneObstacle ⟨1, 0, 10⟩) ⟨⟨1, 0, 10⟩, ⟨0, 0, 10⟩⟩ = some r :=
  ⟨_, (C83_risk 1 (oneObstacle ⟨1, 0, 10⟩) (by norm_num [oneObstacle]) (by norm_num [oneObstacle]) ⟨⟨1, 0, 10⟩, ⟨0, 0, 10⟩⟩).1 (by decide)⟩
/-- a move that is accepted -/
example : ∃ W n, isLegal 1 W exampleCfg n := by
  obtain ⟨W, _, _, _, _, h, _⟩ := C75_flies_into_high_obstacle_violated
  exact ⟨W, _, h⟩
/-- the map of the example takes one cell for occupied and its neighbours for free -/
example : (exampleWorld.tree.bind fun t => t ⟨2, 0, 3⟩) = some 3 ∧ (exampleWorld.tree.bind fun t => t ⟨1, 0, 3⟩) = some (-2) ∧
    singleRisk 1 exampleWorld ⟨1, 0, 3⟩ < singleRisk 1 exampleWorld ⟨2, 0, 3⟩ := by decide +kernel
/-- its probability grows with the log-odds -/
example : ∀ a b : ℚ, a ≤ b → exampleWorld.prob a ≤ exampleWorld.prob b := by
  intro a b hab
  unfold exampleWorld
  dsimp only
  split <;> split <;> first | norm_num | skip
  rename_i h1 h2
  exact absurd (lt_of_lt_of_le h1 hab) h2

end Global
end Avoidance
