import Verif.GpEdgeFinite

/-!
# No obstacle on a planned edge (C75)

Cell size 1 (the library's `CELL_SCALE`, see `GpCell`). The specification speaks about the points of the straight segment
between the centres of the two cells and about the cells of the map that contain them.
-/

namespace Avoidance
namespace Global

set_option linter.unusedSectionVars false

/-- **Specification**: the point at `t` of the segment from the centre of `a` to the centre of `b`. -/
noncomputable def segPoint (a b : Cell) (t : ℝ) : V3 ℝ :=
  ⟨(a.x : ℝ) + 1 / 2 + t * ((b.x : ℝ) - (a.x : ℝ)), (a.y : ℝ) + 1 / 2 + t * ((b.y : ℝ) - (a.y : ℝ)),
   (a.z : ℝ) + 1 / 2 + t * ((b.z : ℝ) - (a.z : ℝ))⟩

/-- **Specification**: the cell contains a point of the segment between the two cell centres. -/
def Crossed (a b c : Cell) : Prop := ∃ t : ℝ, 0 ≤ t ∧ t ≤ 1 ∧ InBox 1 c (segPoint a b t)

/-- squared distance of two cells, in cells -/
def gap (a b : Cell) : ℤ := (b.x - a.x) ^ 2 + (b.y - a.y) ^ 2 + (b.z - a.z) ^ 2

theorem grid_exists (t : ℝ) (h0 : 0 ≤ t) (h1 : t ≤ 1) :
    ∃ j < 49, ∀ d : ℤ, -4 ≤ d → d ≤ 4 → ⌊(1 : ℝ) / 2 + t * (d : ℝ)⌋ = gridIndex d j := by
  have fa0 : 0 ≤ ⌊24 * t⌋ := Int.floor_nonneg.mpr (by linarith)
  have fa1 : ((⌊24 * t⌋ : ℤ) : ℝ) ≤ 24 * t := Int.floor_le _
  have fa2 : 24 * t < ((⌊24 * t⌋ : ℤ) : ℝ) + 1 := Int.lt_floor_add_one _
  have fa3 : ⌊24 * t⌋ ≤ 24 := by
    have : ((⌊24 * t⌋ : ℤ) : ℝ) ≤ ((24 : ℤ) : ℝ) := by push_cast; linarith
    exact_mod_cast this
  obtain ⟨a, ha⟩ := Int.eq_ofNat_of_zero_le fa0
  rw [ha] at fa1 fa2 fa3
  have ha24 : a ≤ 24 := by omega
  rw [Int.cast_natCast] at fa1 fa2
  by_cases he : 24 * t = (a : ℝ)
  · refine ⟨2 * a, by omega, fun d hd1 hd2 => ?_⟩
    have ht : t = (a : ℝ) / 24 := by linarith
    rw [Int.floor_eq_iff]
    unfold gridIndex
    have q1 := Int.ediv_mul_le (24 + ((2 * a : ℕ) : ℤ) * d) (by norm_num : (48 : ℤ) ≠ 0)
    have q2 := Int.lt_ediv_add_one_mul_self (24 + ((2 * a : ℕ) : ℤ) * d) (by norm_num : (0 : ℤ) < 48)
    generalize (24 + ((2 * a : ℕ) : ℤ) * d) / 48 = q at q1 q2
    have r1 : ((q * 48 : ℤ) : ℝ) ≤ ((24 + ((2 * a : ℕ) : ℤ) * d : ℤ) : ℝ) := by exact_mod_cast q1
    have r2 : ((24 + ((2 * a : ℕ) : ℤ) * d : ℤ) : ℝ) < (((q + 1) * 48 : ℤ) : ℝ) := by exact_mod_cast q2
    push_cast at r1 r2
    rw [ht]
    constructor <;> nlinarith
  · have fa1' : (a : ℝ) < 24 * t := lt_of_le_of_ne fa1 (Ne.symm he)
    have ha23 : a ≤ 23 := by
      have : (a : ℝ) < ((24 : ℕ) : ℝ) := by push_cast; linarith
      have : a < 24 := by exact_mod_cast this
      omega
    refine ⟨2 * a + 1, by omega, fun d hd1 hd2 => ?_⟩
    rw [Int.floor_eq_iff]
    unfold gridIndex
    have q1 := Int.ediv_mul_le (24 + ((2 * a + 1 : ℕ) : ℤ) * d) (by norm_num : (48 : ℤ) ≠ 0)
    have q2 := Int.lt_ediv_add_one_mul_self (24 + ((2 * a + 1 : ℕ) : ℤ) * d) (by norm_num : (0 : ℤ) < 48)
    generalize (24 + ((2 * a + 1 : ℕ) : ℤ) * d) / 48 = q at q1 q2
    have key : (q * 48 ≤ 24 + 2 * (a : ℤ) * d ∨ (d < 0 ∧ q * 48 ≤ 24 + 2 * ((a : ℤ) + 1) * d)) ∧
        (q * 48 ≤ 24 + 2 * (a : ℤ) * d) ∧ q * 48 ≤ 24 + 2 * ((a : ℤ) + 1) * d ∧
        24 + 2 * (a : ℤ) * d ≤ (q + 1) * 48 ∧ 24 + 2 * ((a : ℤ) + 1) * d ≤ (q + 1) * 48 ∧ (d = 0 → 24 < (q + 1) * 48) := by
      push_cast at q1 q2
      interval_cases d <;> omega
    obtain ⟨_, k1, k2, k3, k4, k5⟩ := key
    have r1 : ((q * 48 : ℤ) : ℝ) ≤ ((24 + 2 * (a : ℤ) * d : ℤ) : ℝ) := by exact_mod_cast k1
    have r2 : ((q * 48 : ℤ) : ℝ) ≤ ((24 + 2 * ((a : ℤ) + 1) * d : ℤ) : ℝ) := by exact_mod_cast k2
    have r3 : ((24 + 2 * (a : ℤ) * d : ℤ) : ℝ) ≤ (((q + 1) * 48 : ℤ) : ℝ) := by exact_mod_cast k3
    have r4 : ((24 + 2 * ((a : ℤ) + 1) * d : ℤ) : ℝ) ≤ (((q + 1) * 48 : ℤ) : ℝ) := by exact_mod_cast k4
    push_cast at r1 r2 r3 r4
    rcases lt_trichotomy d 0 with hd | hd | hd
    · have hd' : (d : ℝ) < 0 := by exact_mod_cast hd
      have m1 := mul_lt_mul_of_neg_right fa1' hd'
      have m2 := mul_lt_mul_of_neg_right fa2 hd'
      constructor <;> nlinarith
    · subst hd
      have k5' := k5 rfl
      have r5 : ((24 : ℤ) : ℝ) < (((q + 1) * 48 : ℤ) : ℝ) := by exact_mod_cast k5'
      push_cast at r5
      have k6 : q ≤ 0 := by omega
      have r6 : (q : ℝ) ≤ ((0 : ℤ) : ℝ) := by exact_mod_cast k6
      constructor
      · push_cast at r6 ⊢; linarith
      · push_cast; linarith
    · have hd' : (0 : ℝ) < (d : ℝ) := by exact_mod_cast hd
      have m1 := mul_lt_mul_of_pos_right fa1' hd'
      have m2 := mul_lt_mul_of_pos_right fa2 hd'
      constructor <;> nlinarith

theorem gap_normSq (a b : Cell) : gap a b = (b.sub a).normSq := by
  unfold gap Cell.normSq Cell.sub
  ring

theorem normSq_bounds {d : Cell} (h : d.normSq < 25) : (-4 ≤ d.x ∧ d.x ≤ 4) ∧ (-4 ≤ d.y ∧ d.y ≤ 4) ∧ (-4 ≤ d.z ∧ d.z ≤ 4) := by
  obtain ⟨x, y, z⟩ := d
  unfold Cell.normSq at h
  dsimp only at h ⊢
  refine ⟨?_, ?_, ?_⟩
  · constructor <;> nlinarith [mul_self_nonneg y, mul_self_nonneg z]
  · constructor <;> nlinarith [mul_self_nonneg x, mul_self_nonneg z]
  · constructor <;> nlinarith [mul_self_nonneg y, mul_self_nonneg x]

/-- A crossed cell is the start plus the cell of a grid point. -/
theorem crossed_grid {a b c : Cell} (hg : gap a b < 25) (h : Crossed a b c) : ∃ j < 49, c = a.add (gridCell (b.sub a) j) := by
  obtain ⟨t, h0, h1, hb⟩ := h
  rw [gap_normSq] at hg
  obtain ⟨bx, b_y, bz⟩ := normSq_bounds hg
  obtain ⟨j, hj, hgr⟩ := grid_exists t h0 h1
  refine ⟨j, hj, ?_⟩
  rw [← (C52_cell_unique 1 one_pos _ _).mpr hb]
  unfold cellOf segPoint Cell.add gridCell
  rw [Cell.mk.injEq]
  dsimp only
  have e : ∀ p q : ℤ, -4 ≤ q - p → q - p ≤ 4 → ⌊((p : ℝ) + 1 / 2 + t * ((q : ℝ) - (p : ℝ))) / 1⌋ = p + gridIndex (q - p) j := by
    intro p q u1 u2
    rw [← hgr _ u1 u2, ← Int.floor_intCast_add]
    congr 1
    push_cast
    ring
  exact ⟨e _ _ bx.1 bx.2, e _ _ b_y.1 b_y.2, e _ _ bz.1 bz.2⟩

theorem add_zero_cell (a : Cell) : a.add ⟨0, 0, 0⟩ = a := by
  unfold Cell.add
  simp

theorem mem_cells (n : Node) (c : Cell) (h : c ∈ relCells (n.cell.sub n.parent)) : n.parent.add c ∈ n.cells (1 : ℝ) := by
  rw [cells_eq]
  exact List.mem_map.mpr ⟨c, h, rfl⟩

/-- **C75**: if an edge is shorter than 5 cells and does not climb or descend by more than one cell, then every cell the
straight segment passes through, except the cell where it starts, is among the cells whose risk is added up. -/
theorem C75_flat_edge_covered (n : Node) (hg : gap n.parent n.cell < 25) (hz : (n.cell.z - n.parent.z).natAbs ≤ 1) (c : Cell)
    (h : Crossed n.parent n.cell c) (hne : c ≠ n.parent) : c ∈ n.cells (1 : ℝ) := by
  obtain ⟨j, hj, rfl⟩ := crossed_grid hg h
  rw [gap_normSq] at hg
  have := relCells_cover_all
  rw [List.all_eq_true] at this
  have h1 := this _ (mem_shortBox hg)
  unfold relCells_coverOk at h1
  have hz' : (n.cell.sub n.parent).z.natAbs ≤ 1 := hz
  simp only [hg, hz', decide_true, Bool.and_self, Bool.not_true, Bool.false_or, List.all_eq_true, List.mem_range,
    Bool.or_eq_true, decide_eq_true_eq, List.contains_iff_mem] at h1
  rcases h1 j hj with h2 | h2
  · rw [h2, add_zero_cell] at hne
    exact absurd rfl hne
  · exact mem_cells n _ h2

/-- The number of checked cells is at most three times the length of the edge. -/
theorem count_le (n : Node) (hg : gap n.parent n.cell < 25) : ((n.cells (1 : ℝ)).length : ℝ) ≤ 3 * n.length 1 := by
  have := relCells_count_all
  rw [List.all_eq_true] at this
  have hg' := hg
  rw [gap_normSq] at hg'
  have h1 := this _ (mem_shortBox hg')
  unfold relCells_countOk at h1
  rw [decide_eq_true_iff] at h1
  have h2 := h1 hg'
  rw [cells_eq, List.length_map]
  have h3 : (((relCells (n.cell.sub n.parent)).length : ℝ)) ^ 2 ≤ 9 * ((gap n.parent n.cell : ℤ) : ℝ) := by
    rw [gap_normSq]
    have : ((((relCells (n.cell.sub n.parent)).length : ℤ) * ((relCells (n.cell.sub n.parent)).length : ℤ) : ℤ) : ℝ) ≤
      ((9 * (n.cell.sub n.parent).normSq : ℤ) : ℝ) := by exact_mod_cast h2
    push_cast at this
    rw [sq]; exact this
  have h4 : (n.length 1) ^ 2 = ((gap n.parent n.cell : ℤ) : ℝ) := by
    unfold Node.length Cell.dist3D
    rw [Real.sq_sqrt (by positivity)]
    unfold gap pos
    push_cast
    ring
  rw [← h4] at h3
  have h5 : 0 ≤ n.length 1 := Real.sqrt_nonneg _
  exact abs_le_of_sq_le_sq' (by rw [mul_pow]; norm_num; exact h3) (by linarith) |>.2

theorem length_sq (n : Node) : (n.length 1) ^ 2 = ((gap n.parent n.cell : ℤ) : ℝ) := by
  unfold Node.length Cell.dist3D
  rw [Real.sq_sqrt (by positivity)]
  unfold gap pos
  push_cast
  ring

/-! ## The risk sum -/

theorem mapM_sum_ge {l : List Cell} {f : Cell → Option ℝ} {g : Cell → ℝ} (hf : ∀ c r, f c = some r → g c ≤ r) {o : List ℝ}
    (h : l.mapM f = some o) : (l.map g).sum ≤ o.sum := by
  induction l generalizing o with
  | nil =>
      rw [List.mapM_nil] at h
      have h' : o = [] := (Option.some_inj.mp h).symm
      rw [h']; simp
  | cons c l ih =>
      rw [List.mapM_cons] at h
      cases hc : f c with
      | none => rw [hc] at h; exact absurd h (by simp)
      | some r0 =>
          rw [hc] at h
          cases hl : l.mapM f with
          | none => rw [hl] at h; exact absurd h (by simp)
          | some o' =>
              rw [hl] at h
              have h' : o = r0 :: o' := (Option.some_inj.mp h).symm
              rw [h', List.map_cons, List.sum_cons, List.sum_cons]
              have := hf c r0 hc
              have := ih hl
              linarith

theorem sum_indicator (l : List Cell) (p : Cell → Bool) (x : ℝ) :
    (l.map fun c => if p c = true then x else 0).sum = ((l.filter p).length : ℝ) * x := by
  induction l with
  | nil => simp
  | cons c l ih =>
      rw [List.map_cons, List.sum_cons, ih, List.filter_cons]
      split
      · rw [List.length_cons]; push_cast; ring
      · ring

/-- The risk of a cell contains the risk of the cells around it. -/
theorem cellRisk_ge (W : RiskWorld ℝ) (hW : GoodWorld W) (hr : 0 < W.robotRadius) (hres : 0 < W.resolution) (c o : Cell) (r : ℝ)
    (h : cellRisk 1 W c = some r) :
    (c = o → (1 + W.flow) * singleRisk 1 W o ≤ r) ∧ (c ∈ faces o → W.flow * singleRisk 1 W o ≤ r) := by
  refine ⟨fun hc => by subst hc; exact ((C60_cell_risk 1 W hW c hr hres).2 r h).1, fun hc => ?_⟩
  have hdef := (C60_cell_risk 1 W hW c hr hres).1.mp ⟨r, h⟩
  have hceil : ⌈W.robotRadius / W.resolution⌉ = 1 := by
    have h1 : 0 < ⌈W.robotRadius / W.resolution⌉ := Int.ceil_pos.mpr (div_pos hr hres)
    have h2 : ⌈W.robotRadius / W.resolution⌉ ≤ 1 := by rw [Int.ceil_le, div_le_iff₀ hres, Int.cast_one, one_mul]; exact hdef
    omega
  unfold cellRisk at h
  rw [(C52_flow_neighbors c _ (by omega)).2.1 hceil, Option.map_some, Option.some_inj] at h
  have m0 := fun d => mul_nonneg hW.flow (C60_single_risk 1 W hW d).1
  have s0 := (C60_single_risk 1 W hW c).1
  rw [← h]
  have hmem : W.flow * singleRisk 1 W o ∈ List.map (fun n => W.flow * singleRisk 1 W n) [⟨c.x - 1, c.y, c.z⟩, ⟨c.x, c.y - 1, c.z⟩,
      ⟨c.x, c.y, c.z - 1⟩, c, ⟨c.x, c.y, c.z + 1⟩, ⟨c.x, c.y + 1, c.z⟩, ⟨c.x + 1, c.y, c.z⟩] := by
    refine List.mem_map.mpr ⟨o, ?_, rfl⟩
    obtain ⟨ox, oy, oz⟩ := o
    unfold faces at hc
    simp only [List.mem_cons, List.not_mem_nil, or_false] at hc ⊢
    rcases hc with rfl | rfl | rfl | rfl | rfl | rfl <;> simp
  have := List.single_le_sum (l := List.map (fun n => W.flow * singleRisk 1 W n) [⟨c.x - 1, c.y, c.z⟩, ⟨c.x, c.y - 1, c.z⟩,
      ⟨c.x, c.y, c.z - 1⟩, c, ⟨c.x, c.y, c.z + 1⟩, ⟨c.x, c.y + 1, c.z⟩, ⟨c.x + 1, c.y, c.z⟩]) (by
        intro x hx
        obtain ⟨d, _, rfl⟩ := List.mem_map.mp hx
        exact m0 d) _ hmem
  linarith

theorem legal_sum {W : RiskWorld ℝ} {C : CostCfg} {n : Node} (h : isLegal 1 W C n) :
    ∃ l : List ℝ, (n.cells (1 : ℝ)).mapM (cellRisk 1 W) = some l ∧ 0 < ((n.cells (1 : ℝ)).length : ℝ) ∧
      l.sum * n.length 1 < C.maxCellRisk * ((n.cells (1 : ℝ)).length : ℝ) := by
  obtain ⟨_, r, hr, hlt⟩ := h
  unfold nodeRisk at hr
  cases hm : (n.cells (1 : ℝ)).mapM (cellRisk 1 W) with
  | none => rw [hm] at hr; exact absurd hr (by simp)
  | some l =>
      rw [hm] at hr
      dsimp only at hr
      split at hr
      · exact absurd hr (by simp)
      · rename_i hN
        have hpos : 0 < ((n.cells (1 : ℝ)).length : ℝ) := by
          have : 0 < (n.cells (1 : ℝ)).length := Nat.pos_of_ne_zero hN
          exact_mod_cast this
        refine ⟨l, rfl, hpos, ?_⟩
        rw [← Option.some_inj.mp hr] at hlt
        rw [div_mul_eq_mul_div, div_lt_iff₀ hpos] at hlt
        exact hlt

/-- **C75**: an accepted edge bounds the risk of every cell it crosses, not only of the average. For every edge shorter than 5
cells and every cell the segment crosses, except the one it starts in: either the cell was examined and `(1 + flow)` times its
risk is below three times the configured maximum, or it was skipped by the sampling, but then cells next to it were
examined and `flow` times its risk is below 5/4 of the maximum. -/
theorem C75_edge_risk (W : RiskWorld ℝ) (hW : GoodWorld W) (hr : 0 < W.robotRadius) (hres : 0 < W.resolution) (C : CostCfg) (n : Node)
    (hg : gap n.parent n.cell < 25) (hl : isLegal 1 W C n) (c : Cell) (h : Crossed n.parent n.cell c) (hne : c ≠ n.parent) :
    (c ∈ n.cells (1 : ℝ) ∧ (1 + W.flow) * singleRisk 1 W c < 3 * C.maxCellRisk) ∨
    (c ∉ n.cells (1 : ℝ) ∧ 4 * (W.flow * singleRisk 1 W c) < 5 * C.maxCellRisk) := by
  obtain ⟨l, hm, hpos, hlt⟩ := legal_sum hl
  have hlen0 : 0 ≤ n.length 1 := Real.sqrt_nonneg _
  have hs0 := (C60_single_risk 1 W hW c).1
  by_cases hc : c ∈ n.cells (1 : ℝ)
  · left
    refine ⟨hc, ?_⟩
    have hsum := mapM_sum_ge (g := fun d => if decide (d = c) = true then (1 + W.flow) * singleRisk 1 W c else 0) (fun d r hdr => by
      split
      · rename_i hd
        exact (cellRisk_ge W hW hr hres d c r hdr).1 (of_decide_eq_true hd)
      · exact cellRisk_nonneg 1 W hW d r hdr) hm
    rw [sum_indicator] at hsum
    have hx0 : 0 ≤ (1 + W.flow) * singleRisk 1 W c := mul_nonneg (by linarith [hW.flow]) hs0
    have hone : (1 : ℝ) ≤ (((n.cells (1 : ℝ)).filter fun d => decide (d = c)).length : ℝ) := by
      have : 0 < ((n.cells (1 : ℝ)).filter fun d => decide (d = c)).length :=
        List.length_pos_of_mem (List.mem_filter.mpr ⟨hc, decide_eq_true rfl⟩)
      exact_mod_cast this
    have h1 : (1 + W.flow) * singleRisk 1 W c ≤ l.sum := le_trans (by nlinarith) hsum
    have hcnt := count_le n hg
    have hlenpos : 0 < n.length 1 := by linarith
    have h2 : (1 + W.flow) * singleRisk 1 W c * n.length 1 ≤ l.sum * n.length 1 := mul_le_mul_of_nonneg_right h1 hlen0
    have hmax : 0 < C.maxCellRisk := by
      by_contra hneg
      rw [not_lt] at hneg
      have : 0 ≤ l.sum * n.length 1 := mul_nonneg (le_trans hx0 h1) hlen0
      nlinarith
    have h3 : C.maxCellRisk * ((n.cells (1 : ℝ)).length : ℝ) ≤ C.maxCellRisk * (3 * n.length 1) :=
      mul_le_mul_of_nonneg_left hcnt hmax.le
    have h4 : (1 + W.flow) * singleRisk 1 W c * n.length 1 < 3 * C.maxCellRisk * n.length 1 := by linarith
    exact lt_of_mul_lt_mul_right h4 hlen0
  · right
    refine ⟨hc, ?_⟩
    obtain ⟨j, hj, hcj⟩ := crossed_grid hg h
    have hg' := hg
    rw [gap_normSq] at hg'
    have hfin := relCells_near_all
    rw [List.all_eq_true] at hfin
    have h1 := hfin _ (mem_shortBox hg')
    unfold relCells_nearOk at h1
    have hz' : ¬ (n.cell.sub n.parent).z.natAbs ≤ 1 := fun hz => hc (C75_flat_edge_covered n hg hz c h hne)
    simp only [hg', hz', decide_true, decide_false, Bool.or_false, Bool.not_true, Bool.false_or, List.all_eq_true, List.mem_range, Bool.or_eq_true,
      decide_eq_true_eq, List.contains_iff_mem] at h1
    have hne0 : gridCell (n.cell.sub n.parent) j ≠ ⟨0, 0, 0⟩ := by
      intro h0
      rw [h0, add_zero_cell] at hcj
      exact hne hcj
    have hnin : gridCell (n.cell.sub n.parent) j ∉ relCells (n.cell.sub n.parent) := by
      intro hin
      apply hc
      rw [hcj]
      exact mem_cells n _ hin
    rcases h1 j hj with (h2 | h2) | h2
    · exact absurd h2 hne0
    · exact absurd h2 hnin
    -- the number of examined cells next to c
    have hkle : ((faces (gridCell (n.cell.sub n.parent) j)).filter (relCells (n.cell.sub n.parent)).contains).length ≤
        ((n.cells (1 : ℝ)).filter fun d => decide (d ∈ faces c)).length := by
      have hsub : ((faces (gridCell (n.cell.sub n.parent) j)).filter (relCells (n.cell.sub n.parent)).contains).map
          (fun d => n.parent.add d) ⊆ (n.cells (1 : ℝ)).filter fun d => decide (d ∈ faces c) := by
        intro d hd
        obtain ⟨e, he, rfl⟩ := List.mem_map.mp hd
        obtain ⟨he1, he2⟩ := List.mem_filter.mp he
        refine List.mem_filter.mpr ⟨mem_cells n e (List.contains_iff_mem.mp he2), decide_eq_true ?_⟩
        rw [hcj]
        unfold faces Cell.add at *
        simp only [List.mem_cons, List.not_mem_nil, or_false] at he1 ⊢
        rcases he1 with rfl | rfl | rfl | rfl | rfl | rfl <;> simp [add_sub_assoc, add_assoc]
      have hnd : (((faces (gridCell (n.cell.sub n.parent) j)).filter (relCells (n.cell.sub n.parent)).contains).map
          (fun d => n.parent.add d)).Nodup := by
        apply List.Nodup.map
        · rintro ⟨ax, ay, az⟩ ⟨bx, b_y, bz⟩ hh
          unfold Cell.add at hh
          rw [Cell.mk.injEq] at hh ⊢
          dsimp only at hh
          omega
        · apply List.Nodup.filter
          unfold faces
          generalize gridCell (n.cell.sub n.parent) j = g
          simp only [List.nodup_cons, List.mem_cons, List.not_mem_nil, or_false, Cell.mk.injEq, not_false_eq_true, List.nodup_nil,
            and_true]
          refine ⟨?_, ?_, ?_, ?_, ?_⟩ <;> omega
      have := (List.subperm_of_subset hnd hsub).length_le
      rwa [List.length_map] at this
    generalize ((faces (gridCell (n.cell.sub n.parent) j)).filter (relCells (n.cell.sub n.parent)).contains).length = kk at h2 hkle
    have hsum := mapM_sum_ge (g := fun d => if decide (d ∈ faces c) = true then W.flow * singleRisk 1 W c else 0) (fun d r hdr => by
      split
      · rename_i hd
        exact (cellRisk_ge W hW hr hres d c r hdr).2 (of_decide_eq_true hd)
      · exact cellRisk_nonneg 1 W hW d r hdr) hm
    rw [sum_indicator] at hsum
    have hx0 : 0 ≤ W.flow * singleRisk 1 W c := mul_nonneg hW.flow hs0
    have hkle' : (kk : ℝ) ≤ (((n.cells (1 : ℝ)).filter fun d => decide (d ∈ faces c)).length : ℝ) := by exact_mod_cast hkle
    have h3 : (kk : ℝ) * (W.flow * singleRisk 1 W c) ≤ l.sum := le_trans (mul_le_mul_of_nonneg_right hkle' hx0) hsum
    -- N ≤ (5/4) len k
    have hN : 4 * ((n.cells (1 : ℝ)).length : ℝ) ≤ 5 * (n.length 1 * (kk : ℝ)) := by
      have h2' : (25 * (((relCells (n.cell.sub n.parent)).length : ℝ) * ((relCells (n.cell.sub n.parent)).length : ℝ))) ≤
          37 * (((n.cell.sub n.parent).normSq : ℝ) * ((kk : ℝ) * (kk : ℝ))) := by exact_mod_cast h2
      have hls := length_sq n
      rw [gap_normSq] at hls
      rw [← hls] at h2'
      rw [cells_eq, List.length_map]
      have hnn : 0 ≤ 5 * (n.length 1 * (kk : ℝ)) := by positivity
      apply abs_le_of_sq_le_sq' _ hnn |>.2
      nlinarith [mul_nonneg (sq_nonneg (n.length 1)) (mul_self_nonneg (kk : ℝ))]
    have hkk : 0 < n.length 1 * (kk : ℝ) := by nlinarith
    have h4 : (W.flow * singleRisk 1 W c) * (n.length 1 * (kk : ℝ)) ≤ l.sum * n.length 1 := by
      have := mul_le_mul_of_nonneg_right h3 hlen0
      linarith
    have hmax : 0 < C.maxCellRisk := by
      by_contra hneg
      rw [not_lt] at hneg
      have : 0 ≤ (W.flow * singleRisk 1 W c) * (n.length 1 * (kk : ℝ)) := mul_nonneg hx0 hkk.le
      nlinarith
    have h5 : 4 * (C.maxCellRisk * ((n.cells (1 : ℝ)).length : ℝ)) ≤ 5 * C.maxCellRisk * (n.length 1 * (kk : ℝ)) := by
      have := mul_le_mul_of_nonneg_left hN hmax.le
      linarith
    have h6 : 4 * (W.flow * singleRisk 1 W c) * (n.length 1 * (kk : ℝ)) < 5 * C.maxCellRisk * (n.length 1 * (kk : ℝ)) := by linarith
    exact lt_of_mul_lt_mul_right h6 hkk.le

/-- **C75**: with a maximum risk small enough for the risk flow (the shipped values 0.2 and 1.0 satisfy both conditions), no
occupied cell lies on an accepted edge. -/
theorem C75_edge_free (W : RiskWorld ℝ) (hW : GoodWorld W) (hr : 0 < W.robotRadius) (hres : 0 < W.resolution) (C : CostCfg)
    (h6 : 6 * C.maxCellRisk ≤ 1 + W.flow) (h5 : 5 * C.maxCellRisk ≤ 2 * W.flow) (n : Node)
    (hg : gap n.parent n.cell < 25) (hl : isLegal 1 W C n) (c : Cell) (h : Crossed n.parent n.cell c) (hne : c ≠ n.parent) :
    isOccupied 1 W c = false := by
  unfold isOccupied
  rw [decide_eq_false_iff_not, not_lt]
  have hf := hW.flow
  rcases C75_edge_risk W hW hr hres C n hg hl c h hne with ⟨_, h1⟩ | ⟨_, h1⟩
  · by_contra hlt
    rw [not_le] at hlt
    nlinarith
  · by_contra hlt
    rw [not_le] at hlt
    nlinarith


/-! ## The whole path -/

theorem adjacent_gap {a b : Cell} (h : b ∈ a.neighbors) : gap a b < 25 := by
  unfold Cell.neighbors at h
  unfold gap
  simp only [List.mem_cons, List.not_mem_nil, or_false] at h
  rcases h with rfl | rfl | rfl | rfl | rfl | rfl | rfl | rfl | rfl | rfl <;> dsimp only <;> ring_nf <;> norm_num

theorem speed_gap {radius : ℝ} (hrad : radius ≤ 5) {u v : Node} (hu : gap u.parent u.cell < 25) (h : v ∈ nodeNeighbors 1 radius .speed u) :
    gap v.parent v.cell < 25 := by
  unfold nodeNeighbors at h
  dsimp only at h
  rcases List.mem_cons.mp h with rfl | h
  · have e : gap u.cell ((u.cell.sub u.parent).add u.cell) = gap u.parent u.cell := by
      unfold gap Cell.add Cell.sub
      dsimp only
      ring
    dsimp only
    rw [e]; exact hu
  · obtain ⟨c, hc, rfl⟩ := List.mem_map.mp h
    have hs := (List.mem_filter.mp hc).2
    unfold speedNear at hs
    rw [decide_eq_true_iff] at hs
    obtain ⟨_, h2, h3⟩ := hs
    have e : u.cell.distSq (1 : ℝ) c = ((gap u.cell c : ℤ) : ℝ) := by
      unfold Cell.distSq gap pos
      push_cast
      ring
    rw [e] at h3
    have : ((gap u.cell c : ℤ) : ℝ) < ((25 : ℤ) : ℝ) := by push_cast; nlinarith
    exact_mod_cast this

theorem gap_zero_crossed {a b c : Cell} (h : Crossed a b c) (hab : a = b) : c = a := by
  subst hab
  obtain ⟨t, _, _, hb⟩ := h
  have e : segPoint a a t = a.toPoint 1 := by
    unfold segPoint Cell.toPoint pos
    simp
  rw [e] at hb
  rw [← (C52_cell_unique 1 one_pos _ _).mpr hb]
  exact (C52_centre (1 : ℝ) one_pos a).1

variable (radius : ℝ) (W : RiskWorld ℝ) (C : CostCfg) (early : Cell → Bool) (k : NodeKind) (t : GoalCell ℝ)
  (heur : List Node → Node → ℝ) (pick : List ((Node × Bool) × ℝ) → ℕ)

theorem path_short (hrad : radius ≤ 5) {l : List Node} {cst : ℝ}
    (h : PathCost (plannerProblem 1 radius W C early k t heur pick) l cst) (hs : ∀ s, l.head? = some s → k = .speed → gap s.parent s.cell < 25) :
    (l.map Node.cell).IsChain (fun a b => isLegal 1 W C ⟨b, a⟩ ∧ gap a b < 25) := by
  induction h with
  | single a => exact List.isChain_singleton _
  | @cons a b l' c t' hstep _ ih =>
      obtain ⟨hl, v, hv, hv1, hv2⟩ := planner_step 1 radius W C early k t heur pick hstep
      have hgap : gap a.cell b.cell < 25 := by
        by_cases hk : k = .speed
        · subst hk
          have := speed_gap hrad (hs a rfl rfl) hv
          rw [hv1, hv2] at this
          exact this
        · apply adjacent_gap
          unfold nodeNeighbors at hv
          rw [← hv1]
          cases k <;> dsimp only at hv
          · rw [List.mem_map] at hv; obtain ⟨w, hw, rfl⟩ := hv; exact hw
          · rw [List.mem_map] at hv; obtain ⟨w, hw, rfl⟩ := hv; exact hw
          · exact absurd rfl hk
      rw [List.map_cons, List.map_cons, List.isChain_cons_cons]
      refine ⟨⟨hl, hgap⟩, ?_⟩
      have := ih (fun s hs' hk => by
        rw [List.head?_cons, Option.some_inj] at hs'
        subst hs'
        subst hk
        obtain ⟨v', h1, h2, h3, _⟩ := hstep
        have hvb : v' = b := nodeKey_full (k := .speed) (by decide) h3
        rw [← hvb]
        exact speed_gap hrad (hs a rfl rfl) h1)
      rw [List.map_cons] at this
      exact this

/-- **C75**: no occupied cell lies on the reported path. For every map, every node type (`SPEEDNODE_RADIUS` at most 5, as
shipped), every heuristic and every order of the queue: whenever the search reports a path, no cell that contains a point of
the polyline through the centres of its cells from the start cell on is occupied, except possibly the start cell itself. (For the
node type with speed the start must not already move by 5 cells per step.) -/
theorem C75_path_free (hW : GoodWorld W) (hC : GoodCost C) (hr : 0 < W.robotRadius) (hres : 0 < W.resolution)
    (h6 : 6 * C.maxCellRisk ≤ 1 + W.flow) (h5 : 5 * C.maxCellRisk ≤ 2 * W.flow) (hrad : radius ≤ 5) (s : Node)
    (hs : k = .speed → gap s.parent s.cell < 25) (max n : ℕ) {path : List Node} {it : ℕ}
    (h : findSmoothPath (plannerProblem 1 radius W C early k t heur pick) s max n = some (some path, it)) :
    (pathCells s path).tail.IsChain (fun a b => ∀ c, Crossed a b c → c = s.cell ∨ isOccupied 1 W c = false) := by
  obtain ⟨⟨c, hpc⟩, hhd, _, _⟩ := C53_path_legal _ (planner_nonneg 1 radius W C early k t heur pick hW hC) s max n h
  have hch := path_short radius W C early k t heur pick hrad hpc (fun s' h' hk => by
    rw [hhd, Option.some_inj] at h'
    subst h'
    exact hs hk)
  have htail : (pathCells s path).tail = path.map Node.cell := rfl
  rw [htail]
  cases path with
  | nil => exact absurd hhd (by simp)
  | cons s' rest =>
      rw [List.head?_cons, Option.some_inj] at hhd
      subst hhd
      rw [List.map_cons] at hch ⊢
      -- every cell on the way is the start or free
      have main : ∀ (l : List Cell) (a : Cell), (a = s'.cell ∨ isOccupied 1 W a = false) →
          (a :: l).IsChain (fun a b => isLegal 1 W C ⟨b, a⟩ ∧ gap a b < 25) →
          (a :: l).IsChain (fun a b => ∀ c, Crossed a b c → c = s'.cell ∨ isOccupied 1 W c = false) := by
        intro l
        induction l with
        | nil => intro a _ _; exact List.isChain_singleton _
        | cons b l ih =>
            intro a ha hl
            rw [List.isChain_cons_cons] at hl ⊢
            have hall : ∀ c, Crossed a b c → c = s'.cell ∨ isOccupied 1 W c = false := by
              intro c hc
              by_cases hca : c = a
              · rw [hca]; exact ha
              · right
                exact C75_edge_free W hW hr hres C h6 h5 ⟨b, a⟩ hl.1.2 hl.1.1 c hc hca
            refine ⟨hall, ih b ?_ hl.2⟩
            apply hall
            refine ⟨1, by norm_num, le_refl _, ?_⟩
            have e : segPoint a b 1 = b.toPoint 1 := by
              unfold segPoint Cell.toPoint pos
              rw [V3.mk.injEq]
              refine ⟨?_, ?_, ?_⟩ <;> ring
            rw [e]
            exact (C52_cell_unique 1 one_pos _ _).mp (C52_centre (1 : ℝ) one_pos b).1
      exact main _ _ (Or.inl rfl) hch

/-! ## What the check does not see -/

/-- **C75** (violated for steep edges): the sampling has no margin in the vertical direction, and it samples only twice per
cell. From a cell two ahead and three down the segment passes through the cell below the start, which is not among the examined
cells. -/
theorem C75_steep_edge_misses_cell_violated (p : Cell) :
    Crossed p ⟨p.x + 2, p.y, p.z - 3⟩ ⟨p.x, p.y, p.z - 1⟩ ∧
    (⟨p.x, p.y, p.z - 1⟩ : Cell) ∉ (⟨⟨p.x + 2, p.y, p.z - 3⟩, p⟩ : Node).cells (1 : ℝ) ∧ gap p ⟨p.x + 2, p.y, p.z - 3⟩ < 25 := by
  refine ⟨⟨3 / 16, by norm_num, by norm_num, ?_⟩, ?_, ?_⟩
  · unfold InBox segPoint
    push_cast
    refine ⟨⟨?_, ?_⟩, ⟨?_, ?_⟩, ?_, ?_⟩ <;> linarith
  · rw [cells_eq]
    intro hmem
    obtain ⟨c, hc, hc2⟩ := List.mem_map.mp hmem
    have hd : (⟨p.x + 2, p.y, p.z - 3⟩ : Cell).sub p = ⟨2, 0, -3⟩ := by
      unfold Cell.sub
      rw [Cell.mk.injEq]
      dsimp only
      omega
    rw [hd] at hc
    have : c = ⟨0, 0, -1⟩ := by
      obtain ⟨cx, cy, cz⟩ := c
      unfold Cell.add at hc2
      rw [Cell.mk.injEq] at hc2 ⊢
      dsimp only at hc2
      omega
    rw [this] at hc
    exact absurd hc (by decide +kernel)
  · unfold gap
    dsimp only
    ring_nf
    norm_num

theorem altPrior_high (c : Cell) (hz : 9 ≤ c.z) : altPrior (1 : ℝ) c = 1 / 1000 := by
  have hlen : (altPriorTable (K := ℝ)).length = 25 := rfl
  unfold altPrior
  dsimp only
  have hr : roundAway (pos (1 : ℝ) c.z) = c.z + 1 := by rw [roundAway_centre, if_pos (by omega : (0 : ℤ) ≤ c.z)]
  rw [hr, hlen]
  by_cases h : c.z + 1 < 0 ∨ 25 - 1 < (c.z + 1).toNat
  · rw [if_pos h]; rfl
  · rw [if_neg h]
    rw [not_or, not_lt, not_lt] at h
    obtain ⟨m, hm⟩ : ∃ m : ℕ, (c.z + 1).toNat = m := ⟨_, rfl⟩
    have h1 : 10 ≤ m := by omega
    have h2 : m ≤ 24 := by omega
    rw [hm]
    clear hm h hz hlen
    interval_cases m <;> rfl

/-- **C75**, **C60** (violated at altitude): from the tenth layer of cells on (centre above 9.5 m) no cell is ever called occupied,
whatever the map says: with the map's largest probability (0.971, the clamping limit of the octree) the risk stays below 0.033,
because the prior for that altitude is 0.001. -/
theorem C75_high_obstacles_ignored_violated (hW : GoodWorld W) (hp : ∀ lo, W.prob lo ≤ 971 / 1000) (htree : W.tree ≠ none) (c : Cell)
    (hz : 9 ≤ c.z) : singleRisk 1 W c < 33 / 1000 ∧ isOccupied 1 W c = false := by
  have ha := altPrior_high c hz
  have hpost : ∀ lo, posterior (altPrior (1 : ℝ) c) (W.prob lo) < 33 / 1000 := by
    intro lo
    rw [ha]
    have h1 := (C60_posterior (1 / 1000 : ℝ) (W.prob lo) (by norm_num) (by norm_num) (hW.prob lo).1 (hW.prob lo).2).2.2.2 _ (hp lo)
      (by norm_num)
    refine lt_of_le_of_lt h1 ?_
    unfold posterior
    norm_num
  have hs : singleRisk 1 W c < 33 / 1000 := by
    unfold singleRisk
    rw [if_neg (by omega)]
    cases ht : W.tree with
    | none => exact absurd ht htree
    | some tr =>
        dsimp only
        cases tr c with
        | none =>
            dsimp only
            rw [ha]
            have := hW.explore1
            nlinarith
        | some lo =>
            dsimp only
            split
            · exact hpost lo
            · have h1 := hpost lo
              have h2 := (C60_posterior _ _ (C60_altPrior (1 : ℝ) c).2.1 (C60_altPrior (1 : ℝ) c).2.2 (hW.prob lo).1 (hW.prob lo).2).1
              have := hW.explore1
              have := hW.explore0
              nlinarith
  refine ⟨hs, ?_⟩
  unfold isOccupied
  rw [decide_eq_false_iff_not, not_lt]
  linarith

/-- A map with one occupied voxel at `o`, everything else unknown. -/
noncomputable def oneObstacle (o : Cell) : RiskWorld ℝ :=
  { tree := some fun c => if c = o then some 3 else none, prob := fun _ => 97 / 100, occupied := fun c => decide (c = o),
    explore := 0, flow := 1, robotRadius := 1 / 2, resolution := 1 }

theorem oneObstacle_good (o : Cell) : GoodWorld (oneObstacle o) :=
  ⟨fun _ => by unfold oneObstacle; norm_num, by norm_num [oneObstacle], by norm_num [oneObstacle], by norm_num [oneObstacle]⟩

/-- the shipped limits: `max_cell_risk` 0.2, `max_altitude` 50 -/
noncomputable def exampleCfg : CostCfg := { maxAltitude := 50, maxCellRisk := 2 / 10, smooth := 0, riskFactor := 1, up := 1, down := 1 }

theorem oneObstacle_single (o c : Cell) (hc : c ≠ o) (hz : 1 ≤ c.z) : singleRisk 1 (oneObstacle o) c = 0 := by
  unfold singleRisk oneObstacle
  rw [if_neg (by omega)]
  dsimp only
  rw [if_neg hc]
  dsimp only
  rw [zero_mul]

theorem oneObstacle_ceil (o : Cell) : ⌈(oneObstacle o).robotRadius / (oneObstacle o).resolution⌉ = 1 := by
  unfold oneObstacle
  dsimp only
  norm_num [Int.ceil_eq_iff]

theorem unit_cells (p : Cell) : (⟨⟨p.x + 1, p.y, p.z⟩, p⟩ : Node).cells (1 : ℝ) = [p, ⟨p.x + 1, p.y, p.z⟩] := by
  rw [cells_eq]
  have hd : (⟨p.x + 1, p.y, p.z⟩ : Cell).sub p = ⟨1, 0, 0⟩ := by
    unfold Cell.sub
    rw [Cell.mk.injEq]
    dsimp only
    omega
  dsimp only
  rw [hd]
  have e : relCells ⟨1, 0, 0⟩ = [⟨0, 0, 0⟩, ⟨1, 0, 0⟩] := by decide +kernel
  rw [e]
  simp [Cell.add]

theorem unit_length (p : Cell) : (⟨⟨p.x + 1, p.y, p.z⟩, p⟩ : Node).length (1 : ℝ) = 1 := by
  have h := length_sq ⟨⟨p.x + 1, p.y, p.z⟩, p⟩
  have e : gap p ⟨p.x + 1, p.y, p.z⟩ = 1 := by
    unfold gap
    dsimp only
    ring
  rw [e] at h
  have h0 : 0 ≤ (⟨⟨p.x + 1, p.y, p.z⟩, p⟩ : Node).length (1 : ℝ) := Real.sqrt_nonneg _
  push_cast at h
  nlinarith

/-- **C75** (violated at altitude): an edge into a cell the map reports as occupied is accepted with the shipped limits, from the
tenth layer on. -/
theorem C75_flies_into_high_obstacle_violated :
    ∃ W : RiskWorld ℝ, GoodWorld W ∧ W.occupied ⟨1, 0, 10⟩ = true ∧ W.prob 3 = 97 / 100 ∧
      W.tree.map (fun f => f ⟨1, 0, 10⟩) = some (some 3) ∧ isLegal 1 W exampleCfg ⟨⟨1, 0, 10⟩, ⟨0, 0, 10⟩⟩ ∧
      Crossed ⟨0, 0, 10⟩ ⟨1, 0, 10⟩ ⟨1, 0, 10⟩ := by
  refine ⟨oneObstacle ⟨1, 0, 10⟩, oneObstacle_good _, by decide +kernel, rfl, ?_, ⟨?_, ?_⟩, ?_⟩
  · unfold oneObstacle
    simp
  · unfold pos exampleCfg
    norm_num
  · have hu := unit_cells ⟨0, 0, 10⟩
    have hl := unit_length ⟨0, 0, 10⟩
    dsimp only at hu hl
    rw [zero_add] at hu hl
    have hs0 := (C60_single_risk 1 (oneObstacle ⟨1, 0, 10⟩) (oneObstacle_good _) ⟨1, 0, 10⟩).1
    have hs1 := (C75_high_obstacles_ignored_violated (oneObstacle ⟨1, 0, 10⟩) (oneObstacle_good _)
      (fun _ => by unfold oneObstacle; norm_num) (by simp [oneObstacle]) ⟨1, 0, 10⟩ (by norm_num)).1
    have z := oneObstacle_single ⟨1, 0, 10⟩
    have c1 : cellRisk 1 (oneObstacle ⟨1, 0, 10⟩) ⟨0, 0, 10⟩ = some (singleRisk 1 (oneObstacle ⟨1, 0, 10⟩) ⟨1, 0, 10⟩) := by
      unfold cellRisk
      rw [(C52_flow_neighbors _ _ (by rw [oneObstacle_ceil]; norm_num)).2.1 (oneObstacle_ceil _), Option.map_some]
      simp only [List.map_cons, List.map_nil, List.sum_cons, List.sum_nil]
      norm_num
      rw [z ⟨0, 0, 10⟩ (by decide) (by norm_num), z ⟨-1, 0, 10⟩ (by decide) (by norm_num), z ⟨0, -1, 10⟩ (by decide) (by norm_num),
        z ⟨0, 0, 9⟩ (by decide) (by norm_num), z ⟨0, 0, 11⟩ (by decide) (by norm_num), z ⟨0, 1, 10⟩ (by decide) (by norm_num)]
      simp [oneObstacle]
    have c2 : cellRisk 1 (oneObstacle ⟨1, 0, 10⟩) ⟨1, 0, 10⟩ = some (2 * singleRisk 1 (oneObstacle ⟨1, 0, 10⟩) ⟨1, 0, 10⟩) := by
      unfold cellRisk
      rw [(C52_flow_neighbors _ _ (by rw [oneObstacle_ceil]; norm_num)).2.1 (oneObstacle_ceil _), Option.map_some]
      simp only [List.map_cons, List.map_nil, List.sum_cons, List.sum_nil]
      norm_num
      rw [z ⟨0, 0, 10⟩ (by decide) (by norm_num), z ⟨2, 0, 10⟩ (by decide) (by norm_num), z ⟨1, -1, 10⟩ (by decide) (by norm_num),
        z ⟨1, 0, 9⟩ (by decide) (by norm_num), z ⟨1, 0, 11⟩ (by decide) (by norm_num), z ⟨1, 1, 10⟩ (by decide) (by norm_num)]
      have hf : (oneObstacle ⟨1, 0, 10⟩).flow = 1 := rfl
      rw [hf]
      ring
    refine ⟨(singleRisk 1 (oneObstacle ⟨1, 0, 10⟩) ⟨1, 0, 10⟩ + 2 * singleRisk 1 (oneObstacle ⟨1, 0, 10⟩) ⟨1, 0, 10⟩) / 2, ?_, ?_⟩
    · unfold nodeRisk
      rw [hu, hl]
      simp only [List.mapM_cons, List.mapM_nil, c1, c2]
      simp
    · unfold exampleCfg
      dsimp only
      linarith
  · refine ⟨1, by norm_num, le_refl _, ?_⟩
    unfold InBox segPoint
    norm_num

/-- non-vacuity of the edge theorems: in a map with an occupied cell three cells ahead and four up a unit edge is accepted -/
example : isOccupied 1 (oneObstacle ⟨4, 0, 3⟩) ⟨4, 0, 3⟩ = true ∧ isLegal 1 (oneObstacle ⟨4, 0, 3⟩) exampleCfg ⟨⟨1, 0, 3⟩, ⟨0, 0, 3⟩⟩ ∧
    gap ⟨0, 0, 3⟩ ⟨1, 0, 3⟩ < 25 ∧ 6 * exampleCfg.maxCellRisk ≤ 1 + (oneObstacle ⟨4, 0, 3⟩).flow ∧
    5 * exampleCfg.maxCellRisk ≤ 2 * (oneObstacle ⟨4, 0, 3⟩).flow := by
  have hu := unit_cells ⟨0, 0, 3⟩
  have hl := unit_length ⟨0, 0, 3⟩
  dsimp only at hu hl
  rw [zero_add] at hu hl
  have z := oneObstacle_single ⟨4, 0, 3⟩
  have c0 : ∀ x : ℤ, x < 2 → cellRisk 1 (oneObstacle ⟨4, 0, 3⟩) ⟨x, 0, 3⟩ = some 0 := by
    intro x hx
    unfold cellRisk
    rw [(C52_flow_neighbors _ _ (by rw [oneObstacle_ceil]; norm_num)).2.1 (oneObstacle_ceil _), Option.map_some]
    simp only [List.map_cons, List.map_nil, List.sum_cons, List.sum_nil]
    have z' : ∀ a b c : ℤ, a < 4 → 1 ≤ c → singleRisk 1 (oneObstacle ⟨4, 0, 3⟩) ⟨a, b, c⟩ = 0 := by
      intro a b c h1 h2
      apply z _ _ h2
      rw [ne_eq, Cell.mk.injEq]
      omega
    rw [z' _ _ _ (by omega) (by omega), z' _ _ _ (by omega) (by omega), z' _ _ _ (by omega) (by omega), z' _ _ _ (by omega) (by omega),
      z' _ _ _ (by omega) (by omega), z' _ _ _ (by omega) (by omega), z' _ _ _ (by omega) (by omega)]
    simp
  refine ⟨?_, ⟨?_, 0, ?_, ?_⟩, ?_, ?_, ?_⟩
  · unfold isOccupied
    rw [decide_eq_true_iff]
    unfold singleRisk oneObstacle
    rw [if_neg (by norm_num)]
    dsimp only
    rw [if_pos rfl]
    dsimp only
    rw [if_pos (Or.inl (by decide))]
    have : altPrior (1 : ℝ) ⟨4, 0, 3⟩ = 833 / 10000 := by
      unfold altPrior
      dsimp only
      have hr : roundAway (pos (1 : ℝ) 3) = 4 := by rw [roundAway_centre]; rfl
      rw [hr]
      rfl
    rw [this]
    unfold posterior
    norm_num
  · unfold pos exampleCfg
    norm_num
  · unfold nodeRisk
    rw [hu, hl]
    simp only [List.mapM_cons, List.mapM_nil, c0 0 (by norm_num), c0 1 (by norm_num)]
    simp
  · unfold exampleCfg; norm_num
  · unfold gap; norm_num
  · unfold exampleCfg oneObstacle; norm_num
  · unfold exampleCfg oneObstacle; norm_num

end Global
end Avoidance
