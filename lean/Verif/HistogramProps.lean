import Verif.Histogram
import Verif.PolarProps
import Mathlib.Data.List.Induction

/-! # Properties of the histogram class (C09, C10) -/

set_option linter.unusedSectionVars false

namespace Avoidance
namespace Histogram
variable {K : Type*} [Field K] [LinearOrder K] [IsStrictOrderedRing K]

theorem wrapAxis_eq_emod (x : ℤ) (dim : ℕ) (hd : 0 < dim) : wrapAxis x dim = x % dim := by
  unfold wrapAxis
  simp only []
  rw [Int.tmod_eq_emod]
  have h1 := Int.emod_nonneg x (by omega : (dim : ℤ) ≠ 0)
  have h2 := Int.emod_lt_of_pos x (by omega : (0 : ℤ) < dim)
  simp only [Int.natAbs_natCast]
  split_ifs <;> omega

/-- C09 (total and periodic): on a histogram with non-zero dimensions a read is defined for *all*
integers, and depends on the indices only modulo the dimensions. -/
theorem C09_get_total_periodic (h : Histogram K) (he : 0 < h.eDim) (hz : 0 < h.zDim) (x y : ℤ) :
    h.getDist x y = some (h.dist (x % h.eDim).toNat (y % h.zDim).toNat) ∧
    ∀ m n : ℤ, h.getDist (x + m * h.eDim) (y + n * h.zDim) = h.getDist x y := by
  have key : ∀ x y : ℤ, h.getDist x y = some (h.dist (x % h.eDim).toNat (y % h.zDim).toNat) := by
    intro x y
    unfold getDist at?
    rw [wrapAxis_eq_emod x _ he, wrapAxis_eq_emod y _ hz]
    rw [if_pos]
    exact ⟨Int.emod_nonneg x (by omega), Int.emod_lt_of_pos x (by omega),
      Int.emod_nonneg y (by omega), Int.emod_lt_of_pos y (by omega)⟩
  refine ⟨key x y, fun m n => ?_⟩
  rw [key, key, Int.add_mul_emod_self_right, Int.add_mul_emod_self_right]

example : 0 < (Histogram.new 6 : Histogram ℚ).eDim ∧ 0 < (Histogram.new 6 : Histogram ℚ).zDim := by
  decide

/-- The operations that do not resample. -/
def Plain : HistOp K → Prop
  | .set _ _ _ => True
  | .setZero => True
  | _ => False

theorem run_append (h : Histogram K) (a b : List (HistOp K)) :
    h.run (a ++ b) = (h.run a).bind fun h' => h'.run b := by
  induction a generalizing h with
  | nil => rfl
  | cons op a ih =>
    simp only [List.cons_append, run]
    cases h.step op with
    | none => rfl
    | some h' => simp [ih]

theorem plain_dims {h h' : Histogram K} {op : HistOp K} (hp : Plain op) (hs : h.step op = some h') :
    h'.eDim = h.eDim ∧ h'.zDim = h.zDim ∧ h'.res = h.res := by
  cases op with
  | set e z v =>
    simp only [step, setDist] at hs
    split at hs
    · cases hs; exact ⟨rfl, rfl, rfl⟩
    · cases hs
  | setZero => simp only [step, setZero] at hs; cases hs; exact ⟨rfl, rfl, rfl⟩
  | upsample => exact hp.elim
  | downsample => exact hp.elim

/-- Specification: the value of cell `(e,z)` after a history listed newest first: the value of the
newest write to that cell since the newest reset, 0 if there is none. -/
def newestFirst (e z : ℤ) : List (HistOp K) → K
  | [] => 0
  | .set e' z' v :: older => if e' = e ∧ z' = z then v else newestFirst e z older
  | .setZero :: _ => 0
  | _ :: older => newestFirst e z older

/-- C09 (history): after *any* sequence of writes and resets (no undefined behaviour) on a new
histogram, every cell reads the value of the newest write to that cell since the newest reset,
and 0 if there is none.  `ops.reverse` lists the history newest first. -/
theorem C09_get_after_history (res : ℕ) (ops : List (HistOp K)) (hp : ∀ o ∈ ops, Plain o)
    (h : Histogram K) (hrun : (new res : Histogram K).run ops = some h) (e z : ℕ) :
    h.eDim = 180 / res ∧ h.zDim = 360 / res ∧
    (e < 180 / res → z < 360 / res →
      h.getDist e z = some (newestFirst (e : ℤ) (z : ℤ) ops.reverse)) := by
  have main : ∀ (ops : List (HistOp K)), (∀ o ∈ ops, Plain o) → ∀ h : Histogram K,
      (new res : Histogram K).run ops = some h →
      h.eDim = 180 / res ∧ h.zDim = 360 / res ∧
      ∀ e z : ℕ, h.dist e z = newestFirst (e : ℤ) (z : ℤ) ops.reverse := by
    intro ops
    induction ops using List.reverseRecOn with
    | nil =>
      intro _ h hr
      simp only [run] at hr
      cases hr
      exact ⟨rfl, rfl, fun e z => rfl⟩
    | append_singleton ops op ih =>
      intro hp h hr
      rw [run_append] at hr
      cases hpre : (new res : Histogram K).run ops with
      | none => rw [hpre] at hr; cases hr
      | some g =>
        rw [hpre] at hr
        simp only [Option.bind_some, run] at hr
        have hstep : g.step op = some h := by
          cases hg : g.step op with
          | none => rw [hg] at hr; cases hr
          | some g' => rw [hg] at hr; simpa using hr
        obtain ⟨i1, i2, i3⟩ := ih (fun o ho => hp o (by simp [ho])) g hpre
        obtain ⟨d1, d2, _⟩ := plain_dims (hp op (by simp)) hstep
        refine ⟨d1.trans i1, d2.trans i2, fun e z => ?_⟩
        rw [List.reverse_append, List.reverse_singleton, List.singleton_append]
        cases op with
        | set e' z' v =>
          simp only [step, setDist] at hstep
          split at hstep
          · rename_i hb
            cases hstep
            simp only [newestFirst]
            by_cases hc : e = e'.toNat ∧ z = z'.toNat
            · rw [if_pos hc, if_pos ⟨by omega, by omega⟩]
            · rw [if_neg hc, if_neg (by omega), i3]
          · cases hstep
        | setZero => simp only [step, setZero] at hstep; cases hstep; rfl
        | upsample => exact (hp .upsample (by simp)).elim
        | downsample => exact (hp .downsample (by simp)).elim
  obtain ⟨m1, m2, m3⟩ := main ops hp h hrun
  refine ⟨m1, m2, fun he hz => ?_⟩
  rw [(C09_get_total_periodic h (by omega) (by omega) e z).1, m1, m2,
    Int.emod_eq_of_lt (by omega) (by omega), Int.emod_eq_of_lt (by omega) (by omega)]
  simp [m3]

-- a history that meets the hypotheses: write, reset, write
example : ∃ h, (new 6 : Histogram ℚ).run [.set 3 7 2, .setZero, .set 29 59 4] = some h ∧
    h.getDist (-1) (-1) = some 4 := by
  refine ⟨_, rfl, ?_⟩
  decide

theorem isEmptyRow_spec (h : Histogram K) (m : K) (e z n : ℕ) :
    isEmptyRow h m e z n 0 = 0 ↔ ∀ j, z ≤ j → j < z + n → ¬ h.dist e j > m := by
  induction n generalizing z with
  | zero => simp only [isEmptyRow, true_iff]; intro j h1 h2; omega
  | succ n ih =>
    rw [isEmptyRow, if_pos rfl]
    by_cases c : h.dist e z > m
    · rw [if_pos c]
      have : isEmptyRow h m e (z + 1) n (0 + 1) = 1 := by cases n <;> simp [isEmptyRow]
      rw [this]
      simp only [one_ne_zero, false_iff]
      intro hall
      exact hall z (le_refl _) (by omega) c
    · rw [if_neg c, ih]
      constructor
      · intro hall j h1 h2
        rcases Nat.eq_or_lt_of_le h1 with rfl | h1
        · exact c
        · exact hall j h1 (by omega)
      · intro hall j h1 h2
        exact hall j (by omega) (by omega)

theorem isEmptyLoop_spec (h : Histogram K) (m : K) (e n : ℕ) :
    isEmptyLoop h m e n 0 = 0 ↔
      ∀ i, e ≤ i → i < e + n → ∀ j, j < h.zDim → ¬ h.dist i j > m := by
  induction n generalizing e with
  | zero => simp only [isEmptyLoop, true_iff]; intro j h1 h2; omega
  | succ n ih =>
    rw [isEmptyLoop, if_pos rfl]
    by_cases c : isEmptyRow h m e 0 h.zDim 0 = 0
    · rw [c, ih]
      rw [isEmptyRow_spec] at c
      constructor
      · intro hall i h1 h2
        rcases Nat.eq_or_lt_of_le h1 with rfl | h1
        · intro j hj; exact c j (Nat.zero_le _) (by omega)
        · exact hall i h1 (by omega)
      · intro hall i h1 h2
        exact hall i (by omega) (by omega)
    · have hne : ∀ k, k ≠ 0 → isEmptyLoop h m (e + 1) n k = k := by
        intro k hk; cases n <;> simp [isEmptyLoop, hk]
      rw [hne _ c]
      constructor
      · intro h0; exact absurd h0 c
      · intro hall
        rw [isEmptyRow_spec]
        intro j _ hj
        exact hall e (le_refl _) (by omega) j (by omega)

/-- C09: `isEmpty` is true exactly when no read returns a value above `FLT_MIN`. -/
theorem C09_isEmpty_iff (h : Histogram K) (m : K) (he : 0 < h.eDim) (hz : 0 < h.zDim) :
    h.isEmpty m = true ↔ ∀ (x y : ℤ) (v : K), h.getDist x y = some v → v ≤ m := by
  unfold isEmpty
  rw [beq_iff_eq, isEmptyLoop_spec]
  constructor
  · intro hall x y v hv
    rw [(C09_get_total_periodic h he hz x y).1] at hv
    cases hv
    have a1 := Int.emod_nonneg x (by omega : (h.eDim : ℤ) ≠ 0)
    have a2 := Int.emod_lt_of_pos x (by omega : (0 : ℤ) < h.eDim)
    have b1 := Int.emod_nonneg y (by omega : (h.zDim : ℤ) ≠ 0)
    have b2 := Int.emod_lt_of_pos y (by omega : (0 : ℤ) < h.zDim)
    exact not_lt.mp (hall _ (Nat.zero_le _) (by omega) _ (by omega))
  · intro hall i _ hi j hj
    apply not_lt.mpr
    apply hall i j
    rw [(C09_get_total_periodic h he hz i j).1,
      Int.emod_eq_of_lt (by omega) (by omega), Int.emod_eq_of_lt (by omega) (by omega)]
    simp

/-- C10 (guards): a resampling call on the wrong resolution throws and leaves the histogram
unchanged; on the right resolution it does not throw. -/
theorem C10_resample_guards (h : Histogram K) :
    (h.upsample.2 = true ↔ h.res ≠ 12) ∧ (h.upsample.2 = true → h.upsample.1 = h) ∧
    (h.downsample.2 = true ↔ h.res ≠ 6) ∧ (h.downsample.2 = true → h.downsample.1 = h) := by
  unfold upsample downsample ALPHA_RES
  refine ⟨?_, ?_, ?_, ?_⟩ <;> split_ifs <;> simp_all

/-- C10 (round trip): upsampling a half-resolution histogram and downsampling it again returns
the original resolution, dimensions and content. -/
theorem C10_down_up_id (h : Histogram K) (hres : h.res = 12) :
    h.upsample.2 = false ∧ h.upsample.1.downsample.2 = false ∧
    h.upsample.1.downsample.1 = h := by
  obtain ⟨res, zd, ed, d⟩ := h
  simp only at hres
  subst hres
  have e2 : ∀ i : ℕ, (2 * i + 1) / 2 = i := fun i => by omega
  simp only [upsample, downsample, ALPHA_RES]
  norm_num
  funext i j
  simp only [e2]
  ring

/-- C10 (dimensions and memory safety): for the two resolutions in use the 2×2 blocks read by
`downsample` and the cells read by `upsample` lie inside the matrix. -/
theorem C10_resample_in_bounds :
    (∀ i < (new 6 : Histogram K).downsample.1.eDim,
      2 * i + 1 < (new 6 : Histogram K).eDim) ∧
    (∀ j < (new 6 : Histogram K).downsample.1.zDim,
      2 * j + 1 < (new 6 : Histogram K).zDim) ∧
    (∀ i < (new 12 : Histogram K).upsample.1.eDim, i / 2 < (new 12 : Histogram K).eDim) ∧
    (∀ j < (new 12 : Histogram K).upsample.1.zDim, j / 2 < (new 12 : Histogram K).zDim) := by
  simp only [downsample, upsample, new, ALPHA_RES]
  norm_num
  refine ⟨fun i hi => by omega, fun i hi => by omega, fun i hi => by omega, fun i hi => by omega⟩

/-- C10 (history): from a full- or half-resolution histogram, after *any* sequence of public calls
the resolution is one of the two and the dimensions fit it (so reads stay defined). -/
theorem C10_dims_after_history (res : ℕ) (hres : res = 6 ∨ res = 12) (ops : List (HistOp K))
    (h : Histogram K) (hrun : (new res : Histogram K).run ops = some h) :
    (h.res = 6 ∨ h.res = 12) ∧ h.eDim = 180 / h.res ∧ h.zDim = 360 / h.res := by
  have step_inv : ∀ (g g' : Histogram K) (op : HistOp K),
      ((g.res = 6 ∨ g.res = 12) ∧ g.eDim = 180 / g.res ∧ g.zDim = 360 / g.res) →
      g.step op = some g' →
      ((g'.res = 6 ∨ g'.res = 12) ∧ g'.eDim = 180 / g'.res ∧ g'.zDim = 360 / g'.res) := by
    rintro g g' op ⟨i1, i2, i3⟩ hs
    cases op with
    | set e z v =>
      simp only [step, setDist] at hs
      split at hs
      · cases hs; exact ⟨i1, i2, i3⟩
      · cases hs
    | setZero => simp only [step, setZero] at hs; cases hs; exact ⟨i1, i2, i3⟩
    | upsample =>
      simp only [step, upsample, ALPHA_RES] at hs
      cases hs
      rcases i1 with i1 | i1 <;> simp_all
    | downsample =>
      simp only [step, downsample, ALPHA_RES] at hs
      cases hs
      rcases i1 with i1 | i1 <;> simp_all
  have main : ∀ (ops : List (HistOp K)) (g : Histogram K),
      ((g.res = 6 ∨ g.res = 12) ∧ g.eDim = 180 / g.res ∧ g.zDim = 360 / g.res) →
      g.run ops = some h →
      ((h.res = 6 ∨ h.res = 12) ∧ h.eDim = 180 / h.res ∧ h.zDim = 360 / h.res) := by
    intro ops
    induction ops with
    | nil => intro g hg hr; simp only [run] at hr; cases hr; exact hg
    | cons op ops ih =>
      intro g hg hr
      simp only [run] at hr
      cases hstep : g.step op with
      | none => rw [hstep] at hr; cases hr
      | some g' => rw [hstep] at hr; exact ih g' (step_inv g g' op hg hstep) (by simpa using hr)
  exact main ops _ ⟨hres, rfl, rfl⟩ hrun

/-- C10 (no obstacle is lost): with non-negative distances a coarse cell is positive exactly if
one of the four fine cells it replaces is positive, and it lies between their minimum and
maximum. -/
theorem C10_downsample_positive (h : Histogram K) (hres : h.res = 6)
    (hnn : ∀ i j, 0 ≤ h.dist i j) (i j : ℕ) :
    (0 < h.downsample.1.dist i j ↔
      ∃ a b, a / 2 = i ∧ b / 2 = j ∧ 0 < h.dist a b) ∧
    (∀ m, (∀ a b, a / 2 = i → b / 2 = j → m ≤ h.dist a b) → m ≤ h.downsample.1.dist i j) ∧
    (∀ m, (∀ a b, a / 2 = i → b / 2 = j → h.dist a b ≤ m) → h.downsample.1.dist i j ≤ m) := by
  have hd : h.downsample.1.dist i j =
      (h.dist (2 * i) (2 * j) + h.dist (2 * i + 1) (2 * j) +
          h.dist (2 * i) (2 * j + 1) + h.dist (2 * i + 1) (2 * j + 1)) / 4 := by
    simp [downsample, ALPHA_RES, hres]
  rw [hd]
  have n1 := hnn (2 * i) (2 * j)
  have n2 := hnn (2 * i + 1) (2 * j)
  have n3 := hnn (2 * i) (2 * j + 1)
  have n4 := hnn (2 * i + 1) (2 * j + 1)
  refine ⟨⟨?_, ?_⟩, ?_, ?_⟩
  · intro hpos
    by_contra hno
    push Not at hno
    have m1 := hno (2 * i) (2 * j) (by omega) (by omega)
    have m2 := hno (2 * i + 1) (2 * j) (by omega) (by omega)
    have m3 := hno (2 * i) (2 * j + 1) (by omega) (by omega)
    have m4 := hno (2 * i + 1) (2 * j + 1) (by omega) (by omega)
    linarith
  · rintro ⟨a, b, ha, hb, hpos⟩
    have hca : a = 2 * i ∨ a = 2 * i + 1 := by omega
    have hcb : b = 2 * j ∨ b = 2 * j + 1 := by omega
    rcases hca with rfl | rfl <;> rcases hcb with rfl | rfl <;> linarith
  · intro m hm
    have m1 := hm (2 * i) (2 * j) (by omega) (by omega)
    have m2 := hm (2 * i + 1) (2 * j) (by omega) (by omega)
    have m3 := hm (2 * i) (2 * j + 1) (by omega) (by omega)
    have m4 := hm (2 * i + 1) (2 * j + 1) (by omega) (by omega)
    linarith
  · intro m hm
    have m1 := hm (2 * i) (2 * j) (by omega) (by omega)
    have m2 := hm (2 * i + 1) (2 * j) (by omega) (by omega)
    have m3 := hm (2 * i) (2 * j + 1) (by omega) (by omega)
    have m4 := hm (2 * i + 1) (2 * j + 1) (by omega) (by omega)
    linarith

-- hypotheses met: a full-resolution histogram with one obstacle
example : ∃ h : Histogram ℚ, h.res = 6 ∧ (∀ i j, 0 ≤ h.dist i j) ∧ 0 < h.dist 5 7 :=
  ⟨{ (new 6 : Histogram ℚ) with dist := fun i j => if i = 5 ∧ j = 7 then 3 else 0 }, rfl,
    fun i j => by simp only []; split_ifs <;> norm_num, by simp⟩

/-- C10 (what is averaged): each coarse cell is the mean of the four fine cells it replaces, and
each fine cell of an upsampled histogram is the coarse cell that contains it. -/
theorem C10_resample_values (h : Histogram K) (i j : ℕ) :
    (h.res = 6 → 4 * h.downsample.1.dist i j =
      h.dist (2 * i) (2 * j) + h.dist (2 * i + 1) (2 * j) + h.dist (2 * i) (2 * j + 1) +
        h.dist (2 * i + 1) (2 * j + 1)) ∧
    (h.res = 12 → ∀ a b : ℕ, a < 2 → b < 2 →
      h.upsample.1.dist (2 * i + a) (2 * j + b) = h.dist i j) := by
  constructor
  · intro hr
    unfold downsample
    rw [if_neg (by simp [hr, ALPHA_RES])]
    simp only []
    ring
  · intro hr a b ha hb
    unfold upsample
    rw [if_neg (by simp [hr, ALPHA_RES])]
    simp only []
    rw [show (2 * i + a) / 2 = i by omega, show (2 * j + b) / 2 = j by omega]

/-- C10 (directions keep their distance): upsampling does not move obstacles.  For every direction,
the distance read from the upsampled histogram in the 6° cell of that direction is the distance
the half-resolution histogram had in its 12° cell of the same direction. -/
theorem C10_upsample_same_direction [FloorRing K] (h : Histogram K) (hr : h.res = 12)
    (he : h.eDim = 15) (hz : h.zDim = 30) (p : PolarPoint K) :
    h.upsample.1.getDist (polarToHistogramIndex p 6).2 (polarToHistogramIndex p 6).1 =
      h.getDist (polarToHistogramIndex p 12).2 (polarToHistogramIndex p 12).1 := by
  have half : ∀ t : K, ⌊t / (12 : ℕ)⌋ = ⌊t / (6 : ℕ)⌋ / 2 := by
    intro t
    have : t / ((12 : ℕ) : K) = (t / (6 : ℕ)) / ((2 : ℕ) : K) := by push_cast; ring
    rw [this, Int.floor_div_natCast]; rfl
  have r6 := C04_index_in_range p 6 (by norm_num) (by norm_num)
  have r12 := C04_index_in_range p 12 (by norm_num) (by norm_num)
  have key : (polarToHistogramIndex p 12).1 = (polarToHistogramIndex p 6).1 / 2 ∧
      (polarToHistogramIndex p 12).2 = (polarToHistogramIndex p 6).2 / 2 := by
    unfold polarToHistogramIndex
    simp only []
    have e1 : ∀ t c : K, ⌊t / (12 : ℕ) + c / (12 : ℕ)⌋ = ⌊t / (6 : ℕ) + c / (6 : ℕ)⌋ / 2 := by
      intro t c; rw [← add_div, ← add_div, half]
    rw [e1, e1]
    generalize ⌊(wrapPolar p).z / ((6:ℕ):K) + 180 / ((6:ℕ):K)⌋ = x
    generalize ⌊(wrapPolar p).e / ((6:ℕ):K) + 90 / ((6:ℕ):K)⌋ = y
    norm_num
    constructor <;> split_ifs <;> omega
  rw [key.1, key.2]
  have u : h.upsample.1 = { res := h.res / 2, zDim := 2 * h.zDim, eDim := 2 * h.eDim
                            dist := fun i j => h.dist (i / 2) (j / 2) } := by
    unfold upsample
    rw [if_neg (by simp [hr, ALPHA_RES])]
  rw [u]
  generalize (polarToHistogramIndex p 6).1 = x at *
  generalize (polarToHistogramIndex p 6).2 = y at *
  norm_num at r6 r12
  rw [(C09_get_total_periodic _ (by simp only []; omega) (by simp only []; omega) _ _).1,
    (C09_get_total_periodic h (by omega) (by omega) _ _).1]
  simp only [he, hz]
  norm_num
  congr 1 <;> omega

/-- **C09, when a history is defined.** A history of plain operations on a histogram is free of out-of-bounds accesses if and only if every write in it names a cell of the matrix (reads wrap,
writes do not). -/
theorem C09_defined_iff (res : ℕ) (ops : List (HistOp K)) (hp : ∀ o ∈ ops, Plain o) :
    ((new res : Histogram K).run ops).isSome = true ↔ ∀ e z v, HistOp.set e z v ∈ ops → 0 ≤ e ∧ e < 180 / res ∧ 0 ≤ z ∧ z < 360 / res := by
  induction ops using List.reverseRecOn with
  | nil => simp [run]
  | append_singleton ops o ih =>
    rw [run_append]
    have hp' : ∀ x ∈ ops, Plain x := fun x hx => hp x (by simp [hx])
    have ih := ih hp'
    cases hpre : (new res : Histogram K).run ops with
    | none =>
      rw [hpre] at ih
      refine iff_of_false (by simp) (fun h => ?_)
      have := ih.mpr (fun e z v hm => h e z v (by simp [hm]))
      simp at this
    | some g =>
      rw [hpre] at ih
      have hb := ih.mp rfl
      obtain ⟨g1, g2, -⟩ := C09_get_after_history res ops hp' g hpre 0 0
      have hone : ((some g).bind fun h' => h'.run [o]) = g.step o := by
        show (g.step o).bind _ = _
        cases g.step o <;> rfl
      rw [hone]
      have hall : (∀ e z v, HistOp.set e z v ∈ ops ++ [o] → 0 ≤ e ∧ e < 180 / res ∧ 0 ≤ z ∧ z < 360 / res) ↔
          ∀ e z v, o = HistOp.set e z v → 0 ≤ e ∧ e < 180 / res ∧ 0 ≤ z ∧ z < 360 / res := by
        constructor
        · intro h e z v ho
          exact h e z v (by simp [ho])
        · intro h e z v hm
          rcases List.mem_append.mp hm with hm | hm
          · exact hb e z v hm
          · exact h e z v (List.mem_singleton.mp hm).symm
      rw [hall]
      cases o with
      | set e z v =>
        simp only [step, setDist]
        have c1 : ((g.eDim : ℕ) : ℤ) = 180 / (res : ℤ) := by rw [g1]; push_cast; rfl
        have c2 : ((g.zDim : ℕ) : ℤ) = 360 / (res : ℤ) := by rw [g2]; push_cast; rfl
        rw [c1, c2]
        split_ifs with hin
        · refine iff_of_true rfl (fun e' z' v' h => ?_)
          injection h with h1 h2 h3
          subst h1; subst h2
          exact hin
        · refine iff_of_false (by simp) (fun h => hin (h e z v rfl))
      | setZero => exact iff_of_true rfl (fun e z v h => by cases h)
      | upsample => exact (hp .upsample (by simp)).elim
      | downsample => exact (hp .downsample (by simp)).elim

-- a write into column 60 of a histogram of 30 × 60 cells is out of bounds
example : (new 6 : Histogram ℚ).run [.set 3 60 2] = none := by decide

end Histogram

end Avoidance
