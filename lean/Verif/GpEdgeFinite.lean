import Verif.GpNodeProps
import Mathlib.Data.List.Dedup
import Mathlib.Tactic.IntervalCases

/-!
# Finite facts about short edges, used for C75

Cell size 1 (the library's `CELL_SCALE`, see `GpCell`). The facts are evaluated by the kernel for all 729 displacements with
components between -4 and 4; `GpEdgeProps` uses them for all positions and all points of the segments.
-/

namespace Avoidance
namespace Global

set_option linter.unusedSectionVars false

/-! ## The checked cells in integer arithmetic -/

/-- Index of `1/2 + d i / S + o / 10` on one axis (`o` is -1, 0 or 1). -/
def intIndex (d : ℤ) (S i : ℕ) (o : ℤ) : ℤ := (5 * (S : ℤ) + 10 * d * (i : ℤ) + o * (S : ℤ)) / (10 * (S : ℤ))

/-- The checked cells of an edge with displacement `d`, relative to its start. -/
def relCells (d : Cell) : List Cell :=
  let S := 2 * max d.x.natAbs (max d.y.natAbs d.z.natAbs)
  (((List.range S).map fun (i : ℕ) =>
    [(⟨intIndex d.x S (i + 1) 1, intIndex d.y S (i + 1) 1, intIndex d.z S (i + 1) 0⟩ : Cell),
     ⟨intIndex d.x S (i + 1) 1, intIndex d.y S (i + 1) (-1), intIndex d.z S (i + 1) 0⟩,
     ⟨intIndex d.x S (i + 1) (-1), intIndex d.y S (i + 1) 1, intIndex d.z S (i + 1) 0⟩,
     ⟨intIndex d.x S (i + 1) (-1), intIndex d.y S (i + 1) (-1), intIndex d.z S (i + 1) 0⟩]).flatten).dedup

theorem floor_sample (p c : ℤ) (S i : ℕ) (hS : 0 < S) (o : ℤ) :
    ⌊(sampleAxis (1 : ℝ) p c S i + (o : ℝ) / 10) / 1⌋ = p + intIndex (c - p) S i o := by
  have hS' : (0 : ℝ) < (S : ℝ) := by exact_mod_cast hS
  have e : (sampleAxis (1 : ℝ) p c S i + (o : ℝ) / 10) / 1 =
      (p : ℝ) + ((5 * (S : ℤ) + 10 * (c - p) * (i : ℤ) + o * (S : ℤ) : ℤ) : ℝ) / ((10 * (S : ℤ) : ℤ) : ℝ) := by
    unfold sampleAxis pos
    push_cast
    field_simp
    ring
  rw [e]
  generalize hn : (5 * (S : ℤ) + 10 * (c - p) * (i : ℤ) + o * (S : ℤ) : ℤ) = a
  have hb : (0 : ℤ) < 10 * (S : ℤ) := by omega
  have hbr : (0 : ℝ) < ((10 * (S : ℤ) : ℤ) : ℝ) := by exact_mod_cast hb
  unfold intIndex
  rw [hn, Int.floor_intCast_add]
  congr 1
  rw [Int.floor_eq_iff, le_div_iff₀ hbr, div_lt_iff₀ hbr]
  constructor
  · exact_mod_cast Int.ediv_mul_le a hb.ne'
  · exact_mod_cast Int.lt_ediv_add_one_mul_self a hb

theorem cells_eq (n : Node) : n.cells (1 : ℝ) = (relCells (n.cell.sub n.parent)).map (fun c => n.parent.add c) := by
  have hinj : Function.Injective (fun c : Cell => n.parent.add c) := by
    rintro ⟨ax, ay, az⟩ ⟨bx, b_y, bz⟩ h
    unfold Cell.add at h
    rw [Cell.mk.injEq] at h ⊢
    dsimp only at h
    omega
  have hst : 2 * max (n.cell.sub n.parent).x.natAbs (max (n.cell.sub n.parent).y.natAbs (n.cell.sub n.parent).z.natAbs) = n.steps := rfl
  unfold Node.cells relCells
  dsimp only
  rw [hst, ← List.dedup_map_of_injective hinj, List.map_flatten, List.map_map]
  congr 2
  apply List.map_congr_left
  intro i hi
  rw [List.mem_range] at hi
  have hS : 0 < n.steps := by omega
  unfold cellsAt cellOf Function.comp Cell.add Cell.sub
  have f1 := fun p c => floor_sample p c n.steps (i + 1) hS 1
  have f2 := fun p c => floor_sample p c n.steps (i + 1) hS (-1)
  have f3 := fun p c => floor_sample p c n.steps (i + 1) hS 0
  simp only [Int.cast_one, Int.cast_neg, Int.cast_zero, zero_div, add_zero, neg_div, ← sub_eq_add_neg] at f1 f2 f3
  simp only [f1, f2, f3, List.map_cons, List.map_nil]

/-! ## Finite facts about short edges -/

/-- All displacements with every component between -4 and 4. -/
def shortBox : List Cell :=
  (List.range 9).flatMap fun (i : ℕ) => (List.range 9).flatMap fun (j : ℕ) => (List.range 9).map fun (k : ℕ) =>
    (⟨(i : ℤ) - 4, (j : ℤ) - 4, (k : ℤ) - 4⟩ : Cell)

/-- The displacements of the box with first component `i - 4`. -/
def slab (i : ℕ) : List Cell :=
  (List.range 9).flatMap fun (j : ℕ) => (List.range 9).map fun (k : ℕ) => (⟨(i : ℤ) - 4, (j : ℤ) - 4, (k : ℤ) - 4⟩ : Cell)

/-- The box slab by slab (keeps the kernel's memory small). -/
theorem all_of_slabs (P : Cell → Bool) (h0 : (slab 0).all P = true) (h1 : (slab 1).all P = true) (h2 : (slab 2).all P = true)
    (h3 : (slab 3).all P = true) (h4 : (slab 4).all P = true) (h5 : (slab 5).all P = true) (h6 : (slab 6).all P = true)
    (h7 : (slab 7).all P = true) (h8 : (slab 8).all P = true) : shortBox.all P = true := by
  have e : shortBox = (List.range 9).flatMap slab := rfl
  rw [e, List.all_flatMap, List.all_eq_true]
  intro i hi
  rw [List.mem_range] at hi
  interval_cases i <;> assumption

/-- squared length -/
def Cell.normSq (d : Cell) : ℤ := d.x * d.x + d.y * d.y + d.z * d.z

theorem mem_shortBox {d : Cell} (h : d.normSq < 25) : d ∈ shortBox := by
  obtain ⟨x, y, z⟩ := d
  unfold Cell.normSq at h
  dsimp only at h
  have hx : -4 ≤ x ∧ x ≤ 4 := by constructor <;> nlinarith [mul_self_nonneg y, mul_self_nonneg z]
  have hy : -4 ≤ y ∧ y ≤ 4 := by constructor <;> nlinarith [mul_self_nonneg x, mul_self_nonneg z]
  have hz : -4 ≤ z ∧ z ≤ 4 := by constructor <;> nlinarith [mul_self_nonneg y, mul_self_nonneg x]
  have rx : (x + 4).toNat ∈ List.range 9 := List.mem_range.mpr (by omega)
  have ry : (y + 4).toNat ∈ List.range 9 := List.mem_range.mpr (by omega)
  have rz : (z + 4).toNat ∈ List.range 9 := List.mem_range.mpr (by omega)
  unfold shortBox
  refine List.mem_flatMap.mpr ⟨_, rx, List.mem_flatMap.mpr ⟨_, ry, List.mem_map.mpr ⟨_, rz, ?_⟩⟩⟩
  rw [Cell.mk.injEq]
  omega

/-- the check behind `relCells_count_all` -/
def relCells_countOk (d : Cell) : Bool :=
  decide (d.normSq < 25 → ((relCells d).length : ℤ) * ((relCells d).length : ℤ) ≤ 9 * d.normSq)

theorem relCells_countOk_0 : (slab 0).all relCells_countOk = true := by decide +kernel

theorem relCells_countOk_1 : (slab 1).all relCells_countOk = true := by decide +kernel

theorem relCells_countOk_2 : (slab 2).all relCells_countOk = true := by decide +kernel

theorem relCells_countOk_3 : (slab 3).all relCells_countOk = true := by decide +kernel

theorem relCells_countOk_4 : (slab 4).all relCells_countOk = true := by decide +kernel

theorem relCells_countOk_5 : (slab 5).all relCells_countOk = true := by decide +kernel

theorem relCells_countOk_6 : (slab 6).all relCells_countOk = true := by decide +kernel

theorem relCells_countOk_7 : (slab 7).all relCells_countOk = true := by decide +kernel

theorem relCells_countOk_8 : (slab 8).all relCells_countOk = true := by decide +kernel

theorem relCells_count_all : shortBox.all relCells_countOk = true :=
  all_of_slabs _ relCells_countOk_0 relCells_countOk_1 relCells_countOk_2 relCells_countOk_3 relCells_countOk_4 relCells_countOk_5 relCells_countOk_6 relCells_countOk_7 relCells_countOk_8

/-- the index of the point `1/2 + (j/48) d` -/
def gridIndex (d : ℤ) (j : ℕ) : ℤ := (24 + (j : ℤ) * d) / 48

/-- the cell of that point of the segment, relative to the start -/
def gridCell (d : Cell) (j : ℕ) : Cell := ⟨gridIndex d.x j, gridIndex d.y j, gridIndex d.z j⟩

/-- the check behind `relCells_cover_all` -/
def relCells_coverOk (d : Cell) : Bool :=
  decide (d.normSq < 25) && decide (d.z.natAbs ≤ 1) |>.not.or
    ((List.range 49).all fun j => decide (gridCell d j = ⟨0, 0, 0⟩) || (relCells d).contains (gridCell d j))

theorem relCells_coverOk_0 : (slab 0).all relCells_coverOk = true := by decide +kernel

theorem relCells_coverOk_1 : (slab 1).all relCells_coverOk = true := by decide +kernel

theorem relCells_coverOk_2 : (slab 2).all relCells_coverOk = true := by decide +kernel

theorem relCells_coverOk_3 : (slab 3).all relCells_coverOk = true := by decide +kernel

theorem relCells_coverOk_4 : (slab 4).all relCells_coverOk = true := by decide +kernel

theorem relCells_coverOk_5 : (slab 5).all relCells_coverOk = true := by decide +kernel

theorem relCells_coverOk_6 : (slab 6).all relCells_coverOk = true := by decide +kernel

theorem relCells_coverOk_7 : (slab 7).all relCells_coverOk = true := by decide +kernel

theorem relCells_coverOk_8 : (slab 8).all relCells_coverOk = true := by decide +kernel

theorem relCells_cover_all : shortBox.all relCells_coverOk = true :=
  all_of_slabs _ relCells_coverOk_0 relCells_coverOk_1 relCells_coverOk_2 relCells_coverOk_3 relCells_coverOk_4 relCells_coverOk_5 relCells_coverOk_6 relCells_coverOk_7 relCells_coverOk_8

/-- the six cells that share a face with `c` -/
def faces (c : Cell) : List Cell :=
  [⟨c.x - 1, c.y, c.z⟩, ⟨c.x, c.y - 1, c.z⟩, ⟨c.x, c.y, c.z - 1⟩, ⟨c.x, c.y, c.z + 1⟩, ⟨c.x, c.y + 1, c.z⟩, ⟨c.x + 1, c.y, c.z⟩]

/-- the check behind `relCells_near_all` -/
def relCells_nearOk (d : Cell) : Bool :=
  !decide (d.normSq < 25) || decide (d.z.natAbs ≤ 1) ||
    ((List.range 49).all fun j => decide (gridCell d j = ⟨0, 0, 0⟩) || (relCells d).contains (gridCell d j) ||
      decide (25 * (((relCells d).length : ℤ) * ((relCells d).length : ℤ)) ≤
        37 * (d.normSq * ((((faces (gridCell d j)).filter (relCells d).contains).length : ℤ) *
          (((faces (gridCell d j)).filter (relCells d).contains).length : ℤ)))))

theorem relCells_nearOk_0 : (slab 0).all relCells_nearOk = true := by decide +kernel

theorem relCells_nearOk_1 : (slab 1).all relCells_nearOk = true := by decide +kernel

theorem relCells_nearOk_2 : (slab 2).all relCells_nearOk = true := by decide +kernel

theorem relCells_nearOk_3 : (slab 3).all relCells_nearOk = true := by decide +kernel

theorem relCells_nearOk_4 : (slab 4).all relCells_nearOk = true := by decide +kernel

theorem relCells_nearOk_5 : (slab 5).all relCells_nearOk = true := by decide +kernel

theorem relCells_nearOk_6 : (slab 6).all relCells_nearOk = true := by decide +kernel

theorem relCells_nearOk_7 : (slab 7).all relCells_nearOk = true := by decide +kernel

theorem relCells_nearOk_8 : (slab 8).all relCells_nearOk = true := by decide +kernel

theorem relCells_near_all : shortBox.all relCells_nearOk = true :=
  all_of_slabs _ relCells_nearOk_0 relCells_nearOk_1 relCells_nearOk_2 relCells_nearOk_3 relCells_nearOk_4 relCells_nearOk_5 relCells_nearOk_6 relCells_nearOk_7 relCells_nearOk_8

end Global
end Avoidance
