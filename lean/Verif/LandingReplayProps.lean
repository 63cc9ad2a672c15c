import Verif.LandingFilterProps
import Verif.SlpSpiralProps

/-!
# Recorded grids: what is published, and what replaying it gives (C84)
-/

namespace Avoidance
namespace Landing

set_option linter.unusedSectionVars false

variable {K : Type*} [Field K] [LinearOrder K] [IsStrictOrderedRing K] [FloorRing K]

/-! ## Specification -/

/-- A grid message whose arrays have the size that the grid size and the cell size imply. -/
structure WellFormedMsg (m : GridMsg K) : Prop where
  cell : 0 < m.cell_size
  grid : 0 < m.grid_size
  rows : m.rows = ⌈m.grid_size / m.cell_size⌉.toNat
  cols : m.cols = m.rows
  mean : m.mean.length = m.rows * m.cols
  std_dev : m.std_dev.length = m.rows * m.cols
  counter : m.counter.length = m.rows * m.cols

/-- The message says of cell `(i, j)`: mean `a`, standard deviation `b`, number of points `c`. -/
def GridMsg.Says (m : GridMsg K) (i j : ℕ) (a b : K) (c : ℤ) : Prop :=
  m.mean[m.cols * i + j]? = some a ∧ m.std_dev[m.cols * i + j]? = some b ∧ m.counter[m.cols * i + j]? = some c

/-! ## Proofs -/

theorem index_lt {r c i j : ℕ} (hi : i < r) (hj : j < c) : c * i + j < r * c := by
  calc c * i + j < c * i + c := by omega
    _ = c * (i + 1) := by ring
    _ ≤ c * r := Nat.mul_le_mul_left _ hi
    _ = r * c := by ring

theorem WellFormedMsg.says {m : GridMsg K} (h : WellFormedMsg m) {i j : ℕ} (hi : i < m.rows) (hj : j < m.cols) :
    ∃ a b c, m.Says i j a b c := by
  have hl := index_lt hi hj
  exact ⟨_, _, _, List.getElem?_eq_getElem (by rw [h.mean]; exact hl), List.getElem?_eq_getElem (by rw [h.std_dev]; exact hl),
    List.getElem?_eq_getElem (by rw [h.counter]; exact hl)⟩

theorem rawCell_loop (m : GridMsg K) (l : List (ℕ × ℕ)) (A B : ℕ → ℕ → K) (C : ℕ → ℕ → ℤ)
    (hS : ∀ ij ∈ l, m.Says ij.1 ij.2 (A ij.1 ij.2) (B ij.1 ij.2) (C ij.1 ij.2)) (g : Grid K) (hin : ∀ ij ∈ l, InGrid g.n ij.1 ij.2) :
    ∃ g', loopM (rawCell m) g l = some g' ∧ g'.n = g.n ∧ g'.grid_size = g.grid_size ∧ g'.cell_size = g.cell_size ∧
      (∀ ij ∈ l, g'.mean ij.1 ij.2 = A ij.1 ij.2 ∧ g'.variance ij.1 ij.2 = B ij.1 ij.2 ^ 2 ∧ g'.counter ij.1 ij.2 = C ij.1 ij.2) ∧
      (∀ ij : ℕ × ℕ, ij ∉ l → g'.mean ij.1 ij.2 = g.mean ij.1 ij.2 ∧ g'.variance ij.1 ij.2 = g.variance ij.1 ij.2 ∧
        g'.counter ij.1 ij.2 = g.counter ij.1 ij.2) := by
  induction l generalizing g with
  | nil => exact ⟨g, rfl, rfl, rfl, rfl, fun _ h => by simp at h, fun _ _ => ⟨rfl, rfl, rfl⟩⟩
  | cons ij l ih =>
    have h0 := hS ij List.mem_cons_self
    have e : rawCell m g ij = some { g with mean := write g.mean ij.1 ij.2 (A ij.1 ij.2), variance := write g.variance ij.1 ij.2 (B ij.1 ij.2 ^ 2), counter := write g.counter ij.1 ij.2 (C ij.1 ij.2) } := by
      unfold rawCell
      rw [if_pos (hin ij List.mem_cons_self), h0.1, h0.2.1, h0.2.2]
    obtain ⟨g', h1, h2, h3, h4, h5, h6⟩ := ih (fun x hx => hS x (List.mem_cons_of_mem _ hx))
      { g with mean := write g.mean ij.1 ij.2 (A ij.1 ij.2), variance := write g.variance ij.1 ij.2 (B ij.1 ij.2 ^ 2), counter := write g.counter ij.1 ij.2 (C ij.1 ij.2) }
      (fun x hx => hin x (List.mem_cons_of_mem _ hx))
    refine ⟨g', by unfold loopM; rw [e]; exact h1, h2, h3, h4, ?_, ?_⟩
    · intro x hx
      by_cases hxl : x ∈ l
      · exact h5 x hxl
      · have : x = ij := by
          rcases List.mem_cons.mp hx with h | h
          · exact h
          · exact absurd h hxl
        subst this
        obtain ⟨q1, q2, q3⟩ := h6 x hxl
        rw [q1, q2, q3]
        refine ⟨?_, ?_, ?_⟩ <;> (dsimp only; unfold write; rw [if_pos ⟨rfl, rfl⟩])
    · intro x hx
      rw [List.mem_cons, not_or] at hx
      obtain ⟨q1, q2, q3⟩ := h6 x hx.2
      rw [q1, q2, q3]
      have hne : ¬ ((x.1 : ℤ) = ij.1 ∧ (x.2 : ℤ) = ij.2) := by
        rintro ⟨z1, z2⟩
        exact hx.1 (Prod.ext (by exact_mod_cast z1) (by exact_mod_cast z2))
      refine ⟨?_, ?_, ?_⟩ <;> (dsimp only; unfold write; rw [if_neg hne])

/-- **C84, what is published.** The message about any grid has the size of the grid, arrays of the right length, and at the
position of each cell its mean, the root of its variance, its number of points and whether it is landable; the message has the
number it was given. -/
theorem C84_published (sqrt : K → K) (s : Planner K) (seq : ℤ) (hp : s.previous.Sized) :
    WellFormedMsg (publishSerialGrid sqrt s seq) ∧ (publishSerialGrid sqrt s seq).seq = seq ∧
    (publishSerialGrid sqrt s seq).grid_size = s.previous.grid_size ∧ (publishSerialGrid sqrt s seq).cell_size = s.previous.cell_size ∧
    (publishSerialGrid sqrt s seq).rows = s.previous.n ∧ (publishSerialGrid sqrt s seq).pos_index = s.pos_index ∧
    ∀ i j : ℕ, i < s.previous.n → j < s.previous.n →
      (publishSerialGrid sqrt s seq).Says i j (s.previous.mean i j) (sqrt (s.previous.variance i j)) (s.previous.counter i j) ∧
      (publishSerialGrid sqrt s seq).land[s.previous.n * i + j]? = some (s.previous.land i j) := by
  refine ⟨⟨hp.1, hp.2.1, hp.2.2, rfl, ?_, ?_, ?_⟩, rfl, rfl, rfl, rfl, rfl, ?_⟩
  · unfold publishSerialGrid; dsimp only; rw [List.length_map, indices_length]
  · unfold publishSerialGrid; dsimp only; rw [List.length_map, indices_length]
  · unfold publishSerialGrid; dsimp only; rw [List.length_map, indices_length]
  · intro i j hi hj
    unfold GridMsg.Says publishSerialGrid
    dsimp only
    simp only [List.getElem?_map, indices_get _ _ _ hi hj, Option.map_some, and_self]

/-- **C84, replaying.** From any state with grids of the size of the recording, a run on any well-formed recorded grid succeeds.
Afterwards each cell has the recorded number of points and, as mean and variance, `α · old + (1 - α) · recorded` (the recorded
variance being the square of the recorded standard deviation); the planner carries the sequence number of the recording and the
grid of the last run becomes the previous one. -/
theorem C84_replay (s : Planner K) (h : PlannerInv s) (hu : s.size_update = false) (m : GridMsg K) (hm : WellFormedMsg m)
    (hg : m.grid_size = s.grid.grid_size) (hc : m.cell_size = s.grid.cell_size) :
    ∃ s', run s (.raw m) = some s' ∧ s'.previous = s.grid ∧ s'.grid.n = s.grid.n ∧ s'.grid_seq = m.seq ∧
      ∀ (i j : ℕ) (a b : K) (c : ℤ), i < s.grid.n → j < s.grid.n → m.Says i j a b c →
        s'.grid.counter i j = c ∧ s'.grid.mean i j = s.alpha * s.grid.mean i j + (1 - s.alpha) * a ∧
        s'.grid.variance i j = s.alpha * s.grid.variance i j + (1 - s.alpha) * b ^ 2 := by
  have hn : m.rows = s.grid.n := by rw [hm.rows, hg, hc, ← h.sized.2.2]
  have hcn : m.cols = s.grid.n := by rw [hm.cols, hn]
  have ea : applySizeUpdate s = s := by
    unfold applySizeUpdate
    rw [hu, if_neg (by simp)]
  obtain ⟨g', h1, h2, h3, h4, h5, _⟩ := rawCell_loop m (indices m.rows m.cols)
    (fun i j => (m.mean[m.cols * i + j]?).getD 0) (fun i j => (m.std_dev[m.cols * i + j]?).getD 0)
    (fun i j => (m.counter[m.cols * i + j]?).getD 0)
    (by
      intro ij hij
      rw [mem_indices] at hij
      obtain ⟨a, b, c, q⟩ := hm.says hij.1 hij.2
      rw [q.1, q.2.1, q.2.2]
      exact q)
    (s.previous.reset.setFilterLimits s.pos.x s.pos.y)
    (by
      intro ij hij
      rw [mem_indices, hn, hcn, h.same_n] at hij
      show InGrid s.previous.n _ _
      unfold InGrid
      omega)
  have hcond : ¬ ((s.previous.reset.setFilterLimits s.pos.x s.pos.y).grid_size ≠ m.grid_size ∨
      (s.previous.reset.setFilterLimits s.pos.x s.pos.y).cell_size ≠ m.cell_size) := by
    rw [hg, hc]
    push Not
    exact ⟨h.gs.symm, h.cs.symm⟩
  have hnn : g'.n = s.grid.n := by rw [h2, h.same_n]; rfl
  unfold run processRawGrid
  dsimp only
  rw [ea, if_neg hcond, h1]
  simp only [Option.map_some, Option.bind_some]
  unfold Grid.combine
  rw [if_pos hnn]
  refine ⟨_, rfl, rfl, hnn, rfl, ?_⟩
  intro i j a b c hi hj hs
  obtain ⟨r1, r2, r3⟩ := h5 (i, j) (mem_indices.mpr ⟨by rw [hn]; exact hi, by rw [hcn]; exact hj⟩)
  dsimp only at r1 r2 r3
  rw [hs.1] at r1
  rw [hs.2.1] at r2
  rw [hs.2.2] at r3
  unfold isLandingPossible
  dsimp only
  rw [r1, r2, r3]
  exact ⟨rfl, rfl, rfl⟩

/-- **C84, recording and replaying.** A grid published by one planner and replayed into another one of the same size arrives with the
recorded point counts, and its means and variances are filtered into those of the receiver: nothing is lost but what the filter
takes. With `α = 0` the replayed grid is the recorded one. (The published values have already been filtered: with `α > 0` they
are filtered twice.) -/
theorem C84_record_replay (sqrt : K → K) (hsqrt : ∀ x, 0 ≤ x → sqrt x ^ 2 = x) (p s : Planner K) (hp : PlannerInv p)
    (h : PlannerInv s) (hu : s.size_update = false) (seq : ℤ)
    (hg : p.previous.grid_size = s.grid.grid_size) (hc : p.previous.cell_size = s.grid.cell_size) :
    ∃ s', run s (.raw (publishSerialGrid sqrt p seq)) = some s' ∧ s'.grid_seq = seq ∧
      ∀ i j, InGrid p.previous.n i j → s'.grid.counter i j = p.previous.counter i j ∧
        s'.grid.mean i j = s.alpha * s.grid.mean i j + (1 - s.alpha) * p.previous.mean i j ∧
        s'.grid.variance i j = s.alpha * s.grid.variance i j + (1 - s.alpha) * p.previous.variance i j ∧
        (s.alpha = 0 → s'.grid.mean i j = p.previous.mean i j ∧ s'.grid.variance i j = p.previous.variance i j) := by
  obtain ⟨w1, w2, w3, w4, w5, _, w6⟩ := C84_published sqrt p seq hp.sized'
  obtain ⟨s', e1, _, _, e4, e5⟩ := C84_replay s h hu _ w1 (by rw [w3, hg]) (by rw [w4, hc])
  refine ⟨s', e1, by rw [e4, w2], ?_⟩
  intro i j hij
  unfold InGrid at hij
  have hn : p.previous.n = s.grid.n := by rw [hp.sized'.2.2, hg, hc, ← h.sized.2.2]
  obtain ⟨i, rfl⟩ := Int.eq_ofNat_of_zero_le hij.1
  obtain ⟨j, rfl⟩ := Int.eq_ofNat_of_zero_le hij.2.2.1
  have hi : i < p.previous.n := by omega
  have hj : j < p.previous.n := by omega
  obtain ⟨c1, c2, c3⟩ := e5 i j _ _ _ (by omega) (by omega) (w6 i j hi hj).1
  rw [hsqrt _ (hp.var' i j)] at c3
  refine ⟨c1, c2, c3, ?_⟩
  intro h0
  rw [c2, c3, h0]
  constructor <;> ring

/-- **C84, numbering.** Every processed cloud advances the sequence number of the planner by exactly one. -/
theorem C84_sequence (s s' : Planner K) (cloud : List (CloudPoint K)) (h : run s (.cloud cloud) = some s') :
    s'.grid_seq = s.grid_seq + 1 := by
  unfold run processPointcloud at h
  dsimp only at h
  rw [Option.bind_eq_some_iff] at h
  obtain ⟨t, ht, h⟩ := h
  rw [Option.map_eq_some_iff] at ht h
  obtain ⟨g, _, rfl⟩ := ht
  obtain ⟨g', _, rfl⟩ := h
  show (applySizeUpdate s).grid_seq + 1 = _
  unfold applySizeUpdate
  by_cases c : s.size_update = true
  · rw [if_pos c]
  · rw [if_neg c]

/-- Replaying a recording of two different cells into a fresh planner with `α = 0.8`. -/
example :
    let p : Planner ℚ := { plannerInit with previous := { Grid.new 2 1 with mean := fun i j => (i + 10 * j : ℤ), variance := fun _ _ => 0, counter := fun i _ => i + 1 } }
    let m := publishSerialGrid (fun x => x) p 7
    let s : Planner ℚ := { plannerInit with grid := Grid.new 2 1, previous := Grid.new 2 1 }
    m.mean = [0, 10, 1, 11] ∧ m.counter = [1, 1, 2, 2] ∧
    ((run s (.raw m)).map fun s' => (s'.grid_seq, s'.grid.counter 1 0, s'.grid.mean 0 1, s'.grid.mean 1 0)) = some (7, 2, 2, 1/5) := by
  decide +kernel

/-- The states of the theorems exist: the initial planner. -/
example : PlannerInv (plannerInit : Planner ℚ) := inv_init

end Landing
end Avoidance
