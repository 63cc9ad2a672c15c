import Verif.Display
import Verif.NodeScanProps

/-!
# C96: the images shown to the operator
-/

set_option linter.unusedSectionVars false

namespace Avoidance

/-! ## Specification -/

/-- Byte number of the colour `c` of the pixel of a cell, in an image whose first row is the highest elevation and whose first column is
south, `ch` bytes per pixel. -/
def pixel (ch e z c : ℕ) : ℕ := ((29 - e) * 60 + z) * ch + c

/-- `b` is the whole part of `y`, or 0 if `y` is negative. -/
def WholePart (y : ℝ) (b : ℕ) : Prop := (y < 0 → b = 0) ∧ (0 ≤ y → (b : ℝ) ≤ y ∧ y < b + 1)

/-- Brightness of a direction: black if there is no obstacle or it is not nearer than the sensor range, otherwise the whiter the nearer. -/
def Brightness (max_range d : ℝ) (b : ℕ) : Prop :=
  (d ≤ 1 / 100 ∨ max_range ≤ d → b = 0) ∧ (1 / 100 < d → d < max_range → WholePart (255 * (1 - d / max_range)) b)

/-- `M` is the largest value of the two matrices. -/
def Largest (A B : ℕ → ℕ → ℝ) (M : ℝ) : Prop :=
  (∀ e z, e < 30 → z < 60 → A e z ≤ M ∧ B e z ≤ M) ∧ ∃ e z, e < 30 ∧ z < 60 ∧ (A e z = M ∨ B e z = M)

/-- An image message whose numbers fit together: every row has `width` pixels and there are `height` rows. -/
def Image.WellFormed (i : Image) : Prop := i.step = i.channels * i.width ∧ i.data.length = i.step * i.height

/-! ## Proofs -/

section
variable {K : Type*} [Field K] [LinearOrder K] [IsStrictOrderedRing K] [FloorRing K]

/-- What `clampByte` gives. -/
def byteOf : Flt K → ℕ
  | .fin x => ⌊max 0 (min 255 x)⌋.toNat
  | .nan => 255
  | .inf p => if p then 255 else 0

theorem toByte_fin (x : K) (h0 : 0 ≤ x) (h1 : x < 256) : toByte (.fin x) = some ⌊x⌋.toNat := if_pos ⟨h0, h1⟩

theorem clampByte_eq (x : Flt K) : clampByte x = some (byteOf x) ∧ byteOf x ≤ 255 := by
  have h255 : toByte (Flt.fin (255 : K)) = some 255 := by
    rw [toByte_fin _ (by norm_num) (by norm_num)]
    have : ⌊(255 : K)⌋ = 255 := by exact_mod_cast Int.floor_natCast (R := K) 255
    rw [this]; rfl
  have h0 : toByte (Flt.fin (0 : K)) = some 0 := by
    rw [toByte_fin _ le_rfl (by norm_num)]
    simp
  have hmax255 : Flt.stdMax (.fin 0) (.fin (255 : K)) = .fin 255 := by
    unfold Flt.stdMax
    rw [if_pos (by simp [Flt.lt])]
  rcases x with x | _ | p
  · unfold clampByte byteOf Flt.stdMin Flt.stdMax
    dsimp only [Flt.lt]
    have hb : ⌊max 0 (min 255 x)⌋.toNat ≤ 255 := by
      have : ⌊max 0 (min 255 x)⌋ < 256 := Int.floor_lt.mpr (lt_of_le_of_lt (max_le (by norm_num) (min_le_left _ _)) (by norm_num : (255 : K) < ((256 : ℤ) : K)))
      omega
    refine ⟨?_, hb⟩
    by_cases h1 : x < 255
    · simp only [h1, decide_true, if_true]
      rw [min_eq_right h1.le]
      by_cases h2 : 0 < x
      · simp only [h2, decide_true, if_true]
        rw [max_eq_right h2.le]
        exact toByte_fin x h2.le (by linarith)
      · simp only [h2, decide_false, Bool.false_eq_true, if_false]
        rw [max_eq_left (not_lt.mp h2), h0]
        simp
    · simp only [h1, decide_false, Bool.false_eq_true, if_false]
      rw [min_eq_left (not_lt.mp h1)]
      simp only [show (0 : K) < 255 by norm_num, decide_true, if_true]
      rw [max_eq_right (by norm_num : (0 : K) ≤ 255)]
      exact toByte_fin 255 (by norm_num) (by norm_num)
  · refine ⟨?_, le_refl _⟩
    unfold clampByte
    rw [show Flt.stdMin (.fin (255 : K)) .nan = .fin 255 from rfl, hmax255, h255]; rfl
  · cases p
    · refine ⟨?_, Nat.zero_le _⟩
      unfold clampByte
      rw [show Flt.stdMin (.fin (255 : K)) (.inf false) = .inf false from rfl,
        show Flt.stdMax (.fin (0 : K)) (.inf false) = .fin 0 from rfl, h0]; rfl
    · refine ⟨?_, le_refl _⟩
      unfold clampByte
      rw [show Flt.stdMin (.fin (255 : K)) (.inf true) = .fin 255 from rfl, hmax255, h255]; rfl

end

theorem flatMap_get {A B : Type*} (f : A → List B) (n : ℕ) (hf : ∀ a, (f a).length = n) (z : ℕ) (hz : z < n) :
    ∀ (l : List A) (k : ℕ), (l.flatMap f)[k * n + z]? = (l[k]?).bind fun a => (f a)[z]? := by
  intro l
  induction l with
  | nil => intro k; simp
  | cons a l ih =>
    intro k
    rw [List.flatMap_cons]
    cases k with
    | zero => rw [List.getElem?_append_left (by rw [hf]; omega)]; simp
    | succ k =>
      rw [List.getElem?_append_right (by rw [hf]; nlinarith), hf]
      rw [show (k + 1) * n + z - n = k * n + z by rw [Nat.add_mul, Nat.one_mul]; omega, ih k]
      simp

theorem flatMap_len {A B : Type*} (f : A → List B) (n : ℕ) (hf : ∀ a, (f a).length = n) (l : List A) :
    (l.flatMap f).length = l.length * n := by
  induction l with
  | nil => simp
  | cons a l ih => rw [List.flatMap_cons, List.length_append, ih, hf, List.length_cons]; ring

theorem imageCells_length : imageCells.length = 1800 := by
  unfold imageCells
  rw [flatMap_len _ 60 (by intro a; simp [GRID_LENGTH_Z, ALPHA_RES])]
  simp [GRID_LENGTH_E, ALPHA_RES]

theorem imageCells_get (e z : ℕ) (he : e < 30) (hz : z < 60) : imageCells[(29 - e) * 60 + z]? = some (e, z) := by
  unfold imageCells
  rw [flatMap_get _ 60 (by intro a; simp [GRID_LENGTH_Z, ALPHA_RES]) z hz]
  have : (List.range GRID_LENGTH_E).reverse[29 - e]? = some e := by
    rw [List.getElem?_reverse (by simp [GRID_LENGTH_E, ALPHA_RES]; omega)]
    simp only [List.length_range]
    rw [List.getElem?_range (by simp [GRID_LENGTH_E, ALPHA_RES]; omega)]
    congr 1
    simp [GRID_LENGTH_E, ALPHA_RES]; omega
  rw [this]
  simp only [Option.bind_some, List.getElem?_map]
  rw [List.getElem?_range (by simp [GRID_LENGTH_Z, ALPHA_RES]; omega)]
  rfl

theorem imageCells_mem (c : ℕ × ℕ) : c ∈ imageCells ↔ c.1 < 30 ∧ c.2 < 60 := by
  unfold imageCells
  simp only [List.mem_flatMap, List.mem_reverse, List.mem_range, List.mem_map, GRID_LENGTH_E, GRID_LENGTH_Z, ALPHA_RES]
  constructor
  · rintro ⟨e, he, z, hz, rfl⟩; exact ⟨by omega, by omega⟩
  · rintro ⟨h1, h2⟩; exact ⟨c.1, by omega, c.2, by omega, rfl⟩

theorem loopM_blocks {A B : Type*} (f : A → Option (List B)) (g : A → List B) (l : List A) (h : ∀ a ∈ l, f a = some (g a)) :
    ∀ acc, loopM (fun (r : List B) a => (f a).map fun b => r ++ b) acc l = some (acc ++ l.flatMap g) := by
  induction l with
  | nil => intro acc; simp [loopM]
  | cons a l ih =>
    intro acc
    simp only [loopM]
    rw [h a (by simp)]
    simp only [Option.map_some, Option.bind_some]
    rw [ih (fun b hb => h b (by simp [hb]))]
    simp

theorem getDist_at (h : Histogram ℝ) (he : h.eDim = 30) (hz : h.zDim = 60) (e z : ℕ) (h1 : e < 30) (h2 : z < 60) :
    h.getDist e z = some (h.dist e z) := by
  unfold Histogram.getDist Histogram.at? Histogram.wrapAxis
  have a1 : Int.tmod (e : ℤ) (h.eDim : ℤ) = e := by rw [he]; exact Int.tmod_eq_of_lt (by omega) (by omega)
  have a2 : Int.tmod (z : ℤ) (h.zDim : ℤ) = z := by rw [hz]; exact Int.tmod_eq_of_lt (by omega) (by omega)
  dsimp only
  rw [a1, a2, if_neg (show ¬ ((e : ℤ) < 0) by omega), if_neg (show ¬ ((z : ℤ) < 0) by omega), if_pos (by rw [he, hz]; omega)]
  simp

theorem histogramImage_eq (h : Histogram ℝ) (he : h.eDim = 30) (hz : h.zDim = 60) (m : ℝ) :
    histogramImage h m = some (imageCells.map fun c => byteOf (depthVal (h.dist c.1 c.2) m)) := by
  unfold histogramImage
  have := loopM_build (fun c : ℕ × ℕ => (h.getDist c.1 c.2).bind fun d => clampByte (depthVal d m))
    (fun c => byteOf (depthVal (h.dist c.1 c.2) m)) imageCells (by
      intro c hc
      obtain ⟨h1, h2⟩ := (imageCells_mem c).mp hc
      rw [getDist_at h he hz _ _ h1 h2, Option.bind_some, (clampByte_eq _).1]) []
  rw [List.nil_append] at this
  rw [← this]
  congr 1
  funext img c
  cases h.getDist c.1 c.2 <;> rfl

theorem costImage_eq (A B : ℕ → ℕ → ℝ) :
    costImage A B = some (imageCells.flatMap fun c => [byteOf (scaled (B c.1 c.2) (max (maxCoeff A) (maxCoeff B))),
      byteOf (scaled (A c.1 c.2) (max (maxCoeff A) (maxCoeff B))), 0]) := by
  unfold costImage
  dsimp only
  have := loopM_blocks (fun c : ℕ × ℕ => (clampByte (scaled (B c.1 c.2) (max (maxCoeff A) (maxCoeff B)))).bind fun r =>
    (clampByte (scaled (A c.1 c.2) (max (maxCoeff A) (maxCoeff B)))).map fun g => [r, g, 0])
    (fun c => [byteOf (scaled (B c.1 c.2) (max (maxCoeff A) (maxCoeff B))),
      byteOf (scaled (A c.1 c.2) (max (maxCoeff A) (maxCoeff B))), 0]) imageCells (by
      intro c _
      rw [(clampByte_eq _).1, (clampByte_eq _).1]; rfl) []
  rw [List.nil_append] at this
  rw [← this]
  congr 1
  funext img c
  cases clampByte (scaled (B c.1 c.2) (max (maxCoeff A) (maxCoeff B))) <;>
    cases clampByte (scaled (A c.1 c.2) (max (maxCoeff A) (maxCoeff B))) <;> rfl

theorem foldl_max_spec (m : ℕ → ℕ → ℝ) (l : List (ℕ × ℕ)) : ∀ a : ℝ,
    (a ≤ l.foldl (fun a c => max a (m c.1 c.2)) a ∧ ∀ c ∈ l, m c.1 c.2 ≤ l.foldl (fun a c => max a (m c.1 c.2)) a) ∧
    (l.foldl (fun a c => max a (m c.1 c.2)) a = a ∨ ∃ c ∈ l, l.foldl (fun a c => max a (m c.1 c.2)) a = m c.1 c.2) := by
  induction l with
  | nil => intro a; simp
  | cons c l ih =>
    intro a
    obtain ⟨⟨i1, i2⟩, i3⟩ := ih (max a (m c.1 c.2))
    rw [List.foldl_cons]
    refine ⟨⟨le_trans (le_max_left _ _) i1, ?_⟩, ?_⟩
    · intro d hd
      rcases List.mem_cons.mp hd with rfl | hd
      · exact le_trans (le_max_right _ _) i1
      · exact i2 d hd
    · rcases i3 with i3 | ⟨d, hd, i3⟩
      · rw [i3]
        rcases max_choice a (m c.1 c.2) with h | h
        · exact Or.inl h
        · exact Or.inr ⟨c, List.mem_cons_self, h⟩
      · exact Or.inr ⟨d, List.mem_cons_of_mem _ hd, i3⟩

theorem maxCoeff_spec (m : ℕ → ℕ → ℝ) :
    (∀ e z, e < 30 → z < 60 → m e z ≤ maxCoeff m) ∧ ∃ e z, e < 30 ∧ z < 60 ∧ m e z = maxCoeff m := by
  obtain ⟨⟨-, h2⟩, h3⟩ := foldl_max_spec m imageCells (m 0 0)
  refine ⟨fun e z he hz => h2 (e, z) ((imageCells_mem _).mpr ⟨he, hz⟩), ?_⟩
  rcases h3 with h | ⟨c, hc, h⟩
  · exact ⟨0, 0, by norm_num, by norm_num, h.symm⟩
  · obtain ⟨a, b⟩ := (imageCells_mem c).mp hc
    exact ⟨c.1, c.2, a, b, h.symm⟩

theorem largest_unique {A B : ℕ → ℕ → ℝ} {M : ℝ} (h : Largest A B M) : M = max (maxCoeff A) (maxCoeff B) := by
  obtain ⟨a1, e1, z1, he1, hz1, h1⟩ := maxCoeff_spec A
  obtain ⟨b1, e2, z2, he2, hz2, h2⟩ := maxCoeff_spec B
  obtain ⟨l1, e, z, he, hz, h3⟩ := h
  apply le_antisymm
  · rcases h3 with h3 | h3
    · rw [← h3]; exact le_trans (a1 e z he hz) (le_max_left _ _)
    · rw [← h3]; exact le_trans (b1 e z he hz) (le_max_right _ _)
  · exact max_le (h1 ▸ (l1 e1 z1 he1 hz1).1) (h2 ▸ (l1 e2 z2 he2 hz2).2)

theorem byteOf_whole (y : ℝ) (h : y ≤ 255) : WholePart y (byteOf (.fin y)) := by
  unfold byteOf WholePart
  dsimp only
  rw [min_eq_right h]
  constructor
  · intro h0
    rw [max_eq_left h0.le]; simp
  · intro h0
    rw [max_eq_right h0]
    have h1 : 0 ≤ ⌊y⌋ := Int.floor_nonneg.mpr h0
    have e : ((⌊y⌋.toNat : ℕ) : ℝ) = ((⌊y⌋ : ℤ) : ℝ) := by
      have : ((⌊y⌋.toNat : ℕ) : ℤ) = ⌊y⌋ := Int.toNat_of_nonneg h1
      exact_mod_cast this
    rw [e]
    exact ⟨Int.floor_le y, Int.lt_floor_add_one y⟩

theorem brightness_spec (m d : ℝ) (hm : 0 < m) : Brightness m d (byteOf (depthVal d m)) := by
  unfold depthVal scaled
  rw [if_neg hm.ne']
  constructor
  · intro h
    by_cases hd : d > 1 / 100
    · rw [if_pos hd]
      have hmd : m ≤ d := by rcases h with h | h <;> linarith
      have : (255 : ℝ) - 255 * d / m ≤ 0 := by
        rw [sub_nonpos, le_div_iff₀ hm]; linarith
      show byteOf (.fin (255 - 255 * d / m)) = 0
      unfold byteOf
      dsimp only
      rw [max_eq_left (le_trans (min_le_right _ _) this)]; simp
    · rw [if_neg hd]
      unfold byteOf; dsimp only
      rw [min_eq_right (by norm_num)]; simp
  · intro h1 h2
    rw [if_pos h1]
    show WholePart _ (byteOf (.fin (255 - 255 * d / m)))
    rw [show 255 * (1 - d / m) = 255 - 255 * d / m by ring]
    apply byteOf_whole
    have : 0 ≤ 255 * d / m := by positivity
    linarith

/-- **C96, the histogram image.** The image of any histogram and any sensor range above 0 has 1800 bytes, one per direction; each is at most 255, black if
there is no obstacle within the sensor range and otherwise the whiter the nearer the obstacle. -/
theorem C96_histogram_image (h : Histogram ℝ) (he : h.eDim = 30) (hz : h.zDim = 60) (m : ℝ) :
    ∃ img, histogramImage h m = some img ∧ img.length = 1800 ∧ (∀ b ∈ img, b ≤ 255) ∧
      (0 < m → ∀ e z, e < 30 → z < 60 → ∃ b, img[pixel 1 e z 0]? = some b ∧ Brightness m (h.dist e z) b) := by
  refine ⟨_, histogramImage_eq h he hz m, by simp [imageCells_length], ?_, ?_⟩
  · intro b hb
    obtain ⟨c, -, rfl⟩ := List.mem_map.mp hb
    exact (clampByte_eq _).2
  · intro hm e z h1 h2
    refine ⟨_, ?_, brightness_spec m (h.dist e z) hm⟩
    rw [show pixel 1 e z 0 = (29 - e) * 60 + z by simp [pixel], List.getElem?_map, imageCells_get e z h1 h2]
    rfl

/-- Nearer obstacles are never darker. -/
theorem C96_nearer_is_whiter (m d d' : ℝ) (b b' : ℕ) (hb : Brightness m d b) (hb' : Brightness m d' b') (h0 : 1 / 100 < d) (h : d ≤ d') : b' ≤ b := by
  by_cases h1 : d' < m
  · obtain ⟨-, w⟩ := hb.2 h0 (lt_of_le_of_lt h h1)
    obtain ⟨-, w'⟩ := hb'.2 (lt_of_lt_of_le h0 h) h1
    have hm : 0 < m := by linarith
    have e1 : 0 ≤ 255 * (1 - d / m) := by
      have : d / m ≤ 1 := by rw [div_le_one hm]; linarith
      linarith
    have e2 : 0 ≤ 255 * (1 - d' / m) := by
      have : d' / m ≤ 1 := by rw [div_le_one hm]; linarith
      linarith
    have e3 : d / m ≤ d' / m := div_le_div_of_nonneg_right h hm.le
    have l1 := (w e1).2
    have l2 := (w' e2).1
    have : (b' : ℝ) < b + 1 := by linarith
    have : b' < b + 1 := by exact_mod_cast this
    omega
  · rw [hb'.1 (Or.inr (not_lt.mp h1))]; exact Nat.zero_le _

/-- **C96, the cost image.** The image of any two cost matrices has 5400 bytes, three per direction: the share of the distance cost in the largest cost is
the red part, the share of the other costs the green part, blue is 0. If all costs are 0 every pixel is yellow (not black). -/
theorem C96_cost_image (A B : ℕ → ℕ → ℝ) (M : ℝ) (hM : Largest A B M) :
    ∃ img, costImage A B = some img ∧ img.length = 5400 ∧ (∀ b ∈ img, b ≤ 255) ∧ ∀ e z, e < 30 → z < 60 →
      ∃ r g, img[pixel 3 e z 0]? = some r ∧ img[pixel 3 e z 1]? = some g ∧ img[pixel 3 e z 2]? = some 0 ∧
        (0 < M → WholePart (255 * (B e z / M)) r ∧ WholePart (255 * (A e z / M)) g) ∧
        (M = 0 → B e z = 0 → A e z = 0 → r = 255 ∧ g = 255) := by
  rw [costImage_eq, ← largest_unique hM]
  refine ⟨_, rfl, ?_, ?_, ?_⟩
  · rw [flatMap_len _ 3 (by intro a; rfl), imageCells_length]
  · intro b hb
    obtain ⟨c, -, hc⟩ := List.mem_flatMap.mp hb
    simp only [List.mem_cons, List.not_mem_nil, or_false] at hc
    rcases hc with rfl | rfl | rfl
    · exact (clampByte_eq _).2
    · exact (clampByte_eq _).2
    · omega
  · intro e z he hz
    have key : ∀ c < 3, (imageCells.flatMap fun c => [byteOf (scaled (B c.1 c.2) M), byteOf (scaled (A c.1 c.2) M), 0])[pixel 3 e z c]? =
        ([byteOf (scaled (B e z) M), byteOf (scaled (A e z) M), 0] : List ℕ)[c]? := by
      intro c hc
      unfold pixel
      rw [flatMap_get _ 3 (by intro a; rfl) c hc, imageCells_get e z he hz]
      rfl
    refine ⟨_, _, key 0 (by norm_num), key 1 (by norm_num), key 2 (by norm_num), ?_, ?_⟩
    · intro hpos
      obtain ⟨x1, x2⟩ := hM.1 e z he hz
      have side : ∀ x : ℝ, x ≤ M → WholePart (255 * (x / M)) (byteOf (scaled x M)) := by
        intro x hx
        unfold scaled
        rw [if_neg hpos.ne', ← mul_div_assoc]
        apply byteOf_whole
        rw [div_le_iff₀ hpos]; linarith
      exact ⟨side _ x2, side _ x1⟩
    · intro h0 hb ha
      rw [hb, ha, h0]
      unfold scaled
      simp [byteOf]

/-! ## The markers in the cost image -/

theorem setBytes (l : List ℤ) : ∀ (data : List ℕ), (∀ i ∈ l, 0 ≤ i ∧ i < data.length) →
    ∃ out, loopM setByte data l = some out ∧ out.length = data.length ∧
      ∀ k, k < data.length → out[k]? = if (k : ℤ) ∈ l then some 255 else data[k]? := by
  induction l with
  | nil => intro data _; exact ⟨data, rfl, rfl, fun k _ => by simp⟩
  | cons i l ih =>
    intro data h
    obtain ⟨i0, i1⟩ := h i (by simp)
    have e : setByte data i = some (data.set i.toNat 255) := if_pos ⟨i0, i1⟩
    obtain ⟨out, o1, o2, o3⟩ := ih (data.set i.toNat 255) (by
      intro j hj
      rw [List.length_set]
      exact h j (by simp [hj]))
    refine ⟨out, ?_, by rw [o2, List.length_set], ?_⟩
    · show (setByte data i).bind _ = _
      rw [e, Option.bind_some, o1]
    · intro k hk
      rw [o3 k (by rw [List.length_set]; exact hk)]
      by_cases hl : (k : ℤ) ∈ l
      · rw [if_pos hl, if_pos (by simp [hl])]
      · rw [if_neg hl]
        by_cases hi : (k : ℤ) = i
        · rw [if_pos (by simp [hi])]
          have : i.toNat = k := by omega
          rw [this, List.getElem?_set_self hk]
        · rw [if_neg (by simp [hl, hi]), List.getElem?_set_ne (by omega)]

theorem colorIndex_pixel (p : PolarPoint ℝ) (c : ℕ) (hc : c < 3) :
    ∃ e z : ℕ, e < 30 ∧ z < 60 ∧ polarToHistogramIndex p ALPHA_RES = ((z : ℤ), (e : ℤ)) ∧
      colorImageIndex (polarToHistogramIndex p ALPHA_RES).2 (polarToHistogramIndex p ALPHA_RES).1 c = (pixel 3 e z c : ℕ) := by
  obtain ⟨h1, h2, h3, h4⟩ := C04_index_in_range p 6 (by norm_num) (by norm_num)
  rw [show ALPHA_RES = 6 from rfl]
  obtain ⟨z, hz⟩ := Int.eq_ofNat_of_zero_le h1
  obtain ⟨e, he⟩ := Int.eq_ofNat_of_zero_le h3
  rw [hz] at h2
  rw [he] at h4
  have h2' : z < 60 := by omega
  have h4' : e < 30 := by omega
  refine ⟨e, z, h4', h2', Prod.ext hz he, ?_⟩
  rw [hz, he]
  unfold colorImageIndex pixel
  simp only [GRID_LENGTH_E, GRID_LENGTH_Z, ALPHA_RES]
  omega

theorem pixel_inj {e z e' z' c c' : ℕ} (h1 : e < 30) (h2 : z < 60) (h3 : c < 3) (h1' : e' < 30) (h2' : z' < 60) (h3' : c' < 3) :
    pixel 3 e z c = pixel 3 e' z' c' ↔ e = e' ∧ z = z' ∧ c = c' := by
  unfold pixel
  constructor
  · intro h; omega
  · rintro ⟨rfl, rfl, rfl⟩; rfl

/-- Is the colour `c` of the pixel of a cell (`col`, `row`) switched on by a marker? The heading is blue, the waypoint white, the adapted waypoint
light blue. -/
def Marked (heading waypoint adapted : ℤ × ℤ) (e z c : ℕ) : Prop :=
  (((z : ℤ), (e : ℤ)) = heading ∧ c = 2) ∨ ((z : ℤ), (e : ℤ)) = waypoint ∨ (((z : ℤ), (e : ℤ)) = adapted ∧ 1 ≤ c)

/-- The cell of the direction from `o` to `p`. -/
noncomputable def cellTowards (o p : V3 ℝ) : ℤ × ℤ := polarToHistogramIndex (cartesianToPolarHistogram p o) 6

open Classical in
theorem dataImages_spec (hist cost : List ℕ) (hc : cost.length = 5400) (w a p : V3 ℝ) (q : Quat ℝ) :
    ∃ hi ci, publishDataImages hist cost w a p q = some (hi, ci) ∧ hi = ⟨30, 60, 1, 255, hist⟩ ∧ ci.height = 30 ∧ ci.width = 60 ∧
      ci.channels = 3 ∧ ci.WellFormed ∧ ∀ e z c, e < 30 → z < 60 → c < 3 →
        ci.data[pixel 3 e z c]? = if Marked (polarToHistogramIndex (⟨0, drawnHeading q, 1⟩ : PolarPoint ℝ) 6) (cellTowards p w) (cellTowards p a) e z c
          then some 255 else cost[pixel 3 e z c]? := by
  obtain ⟨he, hz, a1, a2, a3, a4⟩ := colorIndex_pixel (⟨0, drawnHeading q, 1⟩ : PolarPoint ℝ) 2 (by norm_num)
  have W := fun c hc => colorIndex_pixel (cartesianToPolarHistogram w p) c hc
  have A := fun c hc => colorIndex_pixel (cartesianToPolarHistogram a p) c hc
  obtain ⟨we, wz, b1, b2, b3, -⟩ := W 0 (by norm_num)
  obtain ⟨ae, az, c1, c2, c3, -⟩ := A 0 (by norm_num)
  have W' : ∀ c : ℕ, c < 3 → colorImageIndex (polarToHistogramIndex (cartesianToPolarHistogram w p) ALPHA_RES).2
      (polarToHistogramIndex (cartesianToPolarHistogram w p) ALPHA_RES).1 c = (pixel 3 we wz c : ℕ) := by
    intro c hc
    obtain ⟨e', z', -, -, x3, x4⟩ := W c hc
    rw [b3, Prod.mk.injEq] at x3
    rw [x4, show e' = we by omega, show z' = wz by omega]
  have A' : ∀ c : ℕ, c < 3 → colorImageIndex (polarToHistogramIndex (cartesianToPolarHistogram a p) ALPHA_RES).2
      (polarToHistogramIndex (cartesianToPolarHistogram a p) ALPHA_RES).1 c = (pixel 3 ae az c : ℕ) := by
    intro c hc
    obtain ⟨e', z', -, -, x3, x4⟩ := A c hc
    rw [c3, Prod.mk.injEq] at x3
    rw [x4, show e' = ae by omega, show z' = az by omega]
  have pb : ∀ e z c, e < 30 → z < 60 → c < 3 → pixel 3 e z c < 5400 := by
    intro e z c h1 h2 h3
    unfold pixel; omega
  obtain ⟨out, o1, o2, o3⟩ := setBytes [((pixel 3 he hz 2 : ℕ) : ℤ), (pixel 3 we wz 0 : ℕ), (pixel 3 we wz 1 : ℕ), (pixel 3 we wz 2 : ℕ),
    (pixel 3 ae az 1 : ℕ), (pixel 3 ae az 2 : ℕ)] cost (by
      have k0 := pb he hz 2 a1 a2 (by norm_num)
      have k1 := pb we wz 0 b1 b2 (by norm_num)
      have k2 := pb we wz 1 b1 b2 (by norm_num)
      have k3 := pb we wz 2 b1 b2 (by norm_num)
      have k4 := pb ae az 1 c1 c2 (by norm_num)
      have k5 := pb ae az 2 c1 c2 (by norm_num)
      rw [hc]
      intro i hi
      simp only [List.mem_cons, List.not_mem_nil, or_false] at hi
      rcases hi with rfl | rfl | rfl | rfl | rfl | rfl <;> constructor <;> omega)
  refine ⟨⟨30, 60, 1, 255, hist⟩, ⟨30, 60, 3, 180, out⟩, ?_, rfl, rfl, rfl, rfl, ⟨rfl, by show out.length = 180 * 30; rw [o2, hc]⟩, ?_⟩
  · unfold publishDataImages
    dsimp only
    have w0 := W' 0 (by norm_num)
    have w1 := W' 1 (by norm_num)
    have w2 := W' 2 (by norm_num)
    have y1 := A' 1 (by norm_num)
    have y2 := A' 2 (by norm_num)
    rw [Nat.cast_ofNat] at a4 w2 y2
    rw [Nat.cast_one] at w1 y1
    rw [Nat.cast_zero] at w0
    rw [if_pos (by rw [hc]; rfl), a4, w0, w1, w2, y1, y2, o1]
    rfl
  · intro e z c h1 h2 h3
    have hx : cellTowards p w = ((wz : ℤ), (we : ℤ)) := b3
    have hy : cellTowards p a = ((az : ℤ), (ae : ℤ)) := c3
    have hh : polarToHistogramIndex (⟨0, drawnHeading q, 1⟩ : PolarPoint ℝ) 6 = ((hz : ℤ), (he : ℤ)) := a3
    rw [o3 _ (by rw [hc]; exact pb e z c h1 h2 h3), hx, hy, hh]
    congr 1
    unfold Marked
    simp only [List.mem_cons, List.not_mem_nil, or_false, Nat.cast_inj, Prod.mk.injEq]
    rw [pixel_inj h1 h2 h3 a1 a2 (by norm_num), pixel_inj h1 h2 h3 b1 b2 (by norm_num), pixel_inj h1 h2 h3 b1 b2 (by norm_num),
      pixel_inj h1 h2 h3 b1 b2 (by norm_num), pixel_inj h1 h2 h3 c1 c2 (by norm_num), pixel_inj h1 h2 h3 c1 c2 (by norm_num)]
    apply propext
    constructor
    · rintro (⟨h, h', h''⟩ | ⟨h, h', -⟩ | ⟨h, h', -⟩ | ⟨h, h', -⟩ | ⟨h, h', h''⟩ | ⟨h, h', h''⟩)
      · exact Or.inl ⟨⟨h', h⟩, h''⟩
      · exact Or.inr (Or.inl ⟨h', h⟩)
      · exact Or.inr (Or.inl ⟨h', h⟩)
      · exact Or.inr (Or.inl ⟨h', h⟩)
      · exact Or.inr (Or.inr ⟨⟨h', h⟩, by omega⟩)
      · exact Or.inr (Or.inr ⟨⟨h', h⟩, by omega⟩)
    · rintro (⟨⟨h', h⟩, h''⟩ | ⟨h', h⟩ | ⟨⟨h', h⟩, h''⟩)
      · exact Or.inl ⟨h, h', h''⟩
      · rcases (by omega : c = 0 ∨ c = 1 ∨ c = 2) with h'' | h'' | h''
        · exact Or.inr (Or.inl ⟨h, h', h''⟩)
        · exact Or.inr (Or.inr (Or.inl ⟨h, h', h''⟩))
        · exact Or.inr (Or.inr (Or.inr (Or.inl ⟨h, h', h''⟩)))
      · rcases (by omega : c = 1 ∨ c = 2) with h'' | h''
        · exact Or.inr (Or.inr (Or.inr (Or.inr (Or.inl ⟨h, h', h''⟩))))
        · exact Or.inr (Or.inr (Or.inr (Or.inr (Or.inr ⟨h, h', h''⟩))))

theorem costMatrix_layers (h : Histogram ℝ) (goal position velocity : V3 ℝ) (params : CostParams) (sm : ℝ) (closest_pt : V3 ℝ) (mx mn : ℝ) :
    getCostMatrix h goal position velocity params sm closest_pt mx mn =
      (costLayers h goal position velocity params sm closest_pt mx mn).map fun l => fun e z => l.1 e z + l.2 e z := by
  unfold getCostMatrix costLayers
  simp only [Option.map_bind, Function.comp_def, Option.map_map]

variable {Q : PriorityQueue (Candidate ℝ) Candidate.lt}

open Classical in
/-- **C96, what is shown after a run.** After any history of calls, a run of the planner leaves a histogram image and a cost image, and publishing them never
writes outside them, whatever the waypoints, the position and the orientation. The histogram image is that of the obstacle distances the planner has
used. The cost image has the size its header says, and is the one of the two cost layers whose sum the planner searched (black if no
direction shows an obstacle), except that the cells of the heading (as drawn), the waypoint and the adapted waypoint are switched on. -/
theorem C96_shown_partial (es : List LpEvent) (now : ℝ) (s s' : LPlanner) (h : loopM (lpStep Q) lpInit es = some s)
    (hrun : lpStep Q s (.run now) = some s') (w a p : V3 ℝ) (q : Quat ℝ) :
    ∃ hist cost hi ci, s'.images = some (hist, cost) ∧ histogramImage s'.histogram s'.max_sensor_range = some hist ∧
      hist.length = 1800 ∧ (∀ b ∈ hist, b ≤ 255) ∧ (∀ b ∈ cost, b ≤ 255) ∧
      (0 < s'.max_sensor_range → ∀ e z, e < 30 → z < 60 → ∃ b, hist[pixel 1 e z 0]? = some b ∧ Brightness s'.max_sensor_range (s'.histogram.dist e z) b) ∧
      (((∀ e z v, s'.histogram.getDist e z = some v → v ≤ fltMin) ∧ cost = List.replicate 5400 0) ∨
        ((∃ e z v, s'.histogram.getDist e z = some v ∧ fltMin < v) ∧ ∃ A B M, Largest A B M ∧ costImage A B = some cost ∧
          costLayers s'.histogram s'.goal s'.position s'.velocity s'.cost s'.smoothing_margin s'.closest_pt s'.max_sensor_range
            s'.min_sensor_range = some (A, B) ∧
          getCostMatrix s'.histogram s'.goal s'.position s'.velocity s'.cost s'.smoothing_margin s'.closest_pt s'.max_sensor_range
            s'.min_sensor_range = some fun e z => A e z + B e z)) ∧
      publishDataImages hist cost w a p q = some (hi, ci) ∧ hi.data = hist ∧ ci.WellFormed ∧ ∀ e z c, e < 30 → z < 60 → c < 3 →
        ci.data[pixel 3 e z c]? = if Marked (polarToHistogramIndex (⟨0, drawnHeading q, 1⟩ : PolarPoint ℝ) 6) (cellTowards p w) (cellTowards p a) e z c
          then some 255 else cost[pixel 3 e z c]? := by
  obtain ⟨out, hh, d, st, t, hsp⟩ := run_spec (show s.run Q now = some s' from hrun)
  obtain ⟨hh', e1, d1, d2⟩ := newHistogram_dims out s.position
  rw [hsp.hist] at e1
  obtain rfl := Option.some.inj e1
  have hhist : s'.histogram = hh := by rw [hsp.eq]
  obtain ⟨img, i1, i2, i3, i4⟩ := C96_histogram_image hh d1 d2 s'.max_sensor_range
  have emp := Histogram.C09_isEmpty_iff hh fltMin (by omega) (by omega)
  have fin : ∀ cost : List ℕ, cost.length = 5400 → _ := fun cost hc => dataImages_spec img cost hc w a p q
  by_cases hem : hh.isEmpty fltMin = true
  · obtain ⟨hi, ci, f1, f2, -, -, -, f3, f4⟩ := fin (List.replicate 5400 0) List.length_replicate
    refine ⟨img, List.replicate 5400 0, hi, ci, ?_, by rw [hhist]; exact i1, i2, i3, ?_, by rw [hhist]; exact i4,
      Or.inl ⟨by rw [hhist]; exact emp.mp hem, rfl⟩, f1, by rw [f2], f3, f4⟩
    · unfold LPlanner.images
      rw [hhist, i1, Option.bind_some, hem]
      rfl
    · intro b hb
      rw [List.eq_of_mem_replicate hb]; omega
  · have hem' : hh.isEmpty fltMin = false := by simpa using hem
    obtain ⟨-, ⟨M, hM⟩, -⟩ := hsp.planned hem'
    have hM' : getCostMatrix s'.histogram s'.goal s'.position s'.velocity s'.cost s'.smoothing_margin s'.closest_pt s'.max_sensor_range
        s'.min_sensor_range = some M := by rw [hsp.eq]; exact hM
    rw [costMatrix_layers, Option.map_eq_some_iff] at hM'
    obtain ⟨⟨A, B⟩, hl, hAB⟩ := hM'
    obtain ⟨a1, ae, az, ha, hb, a2⟩ := maxCoeff_spec A
    obtain ⟨b1, be, bz, hc, hd, b2⟩ := maxCoeff_spec B
    have hL : Largest A B (max (maxCoeff A) (maxCoeff B)) := by
      refine ⟨fun e z he hz => ⟨le_trans (a1 e z he hz) (le_max_left _ _), le_trans (b1 e z he hz) (le_max_right _ _)⟩, ?_⟩
      rcases max_choice (maxCoeff A) (maxCoeff B) with h | h
      · exact ⟨ae, az, ha, hb, Or.inl (by rw [h]; exact a2)⟩
      · exact ⟨be, bz, hc, hd, Or.inr (by rw [h]; exact b2)⟩
    obtain ⟨cost, k1, k2, k3, -⟩ := C96_cost_image A B _ hL
    obtain ⟨hi, ci, f1, f2, -, -, -, f3, f4⟩ := fin cost k2
    refine ⟨img, cost, hi, ci, ?_, by rw [hhist]; exact i1, i2, i3, k3, by rw [hhist]; exact i4,
      Or.inr ⟨?_, A, B, _, hL, k1, hl, ?_⟩, f1, by rw [f2], f3, f4⟩
    · unfold LPlanner.images
      rw [hl, hhist, i1, Option.bind_some, hem']
      show (costImage A B).map _ = _
      rw [k1]; rfl
    · have := mt emp.mpr hem
      push Not at this
      rw [hhist]
      exact this
    · rw [costMatrix_layers, hl]; rfl

/-- Non-vacuity of `C96_shown`: an obstacle 5 m ahead, one run. -/
example (Q : PriorityQueue (Candidate ℝ) Candidate.lt) :
    ∃ s s', loopM (lpStep Q) lpInit exampleLpHistory = some s ∧ lpStep Q s (.run 1) = some s' ∧ 0 < s'.max_sensor_range := by
  obtain ⟨s, s', h, h'⟩ := exampleLp_runs Q
  obtain ⟨out, hh, d, st, t, hsp⟩ := run_spec (show s.run Q 1 = some s' from h')
  have kc := (knows _ s h).config exampleLpConfig rfl
  refine ⟨s, s', h, h', ?_⟩
  rw [hsp.eq]
  show 0 < s.max_sensor_range
  rw [kc.p1]
  norm_num [exampleLpConfig]

/-- Non-vacuity of `C96_histogram_image` and `Brightness`: 3 m of 15 m is brightness 204. -/
example : Brightness 15 3 204 := by
  refine ⟨by rintro (h | h) <;> norm_num at h, fun _ _ => ⟨fun h => by norm_num at h, fun _ => by norm_num⟩⟩

/-- Non-vacuity of `C96_cost_image`. -/
example : Largest (fun _ _ => 1) (fun e _ => e) 29 :=
  ⟨fun e z he _ => ⟨by norm_num, show (e : ℝ) ≤ 29 by exact_mod_cast (by omega : e ≤ 29)⟩, 29, 0, by norm_num, by norm_num, Or.inr (by norm_num)⟩

/-- **C96, the histogram image is malformed.** Its header says that a row has 255 bytes, but a row has 60; the size of the data is not what the header
says. -/
theorem C96_histogram_image_header_violated (hist cost : List ℕ) (hh : hist.length = 1800) (hc : cost.length = 5400) (w a p : V3 ℝ) (q : Quat ℝ) :
    ∃ hi ci, publishDataImages hist cost w a p q = some (hi, ci) ∧ ¬ hi.WellFormed ∧ hi.data.length ≠ hi.step * hi.height ∧
      hi.step ≠ hi.channels * hi.width := by
  obtain ⟨hi, ci, f1, f2, -⟩ := dataImages_spec hist cost hc w a p q
  refine ⟨hi, ci, f1, ?_, ?_, ?_⟩
  · rw [f2]; rintro ⟨h, -⟩; norm_num at h
  · rw [f2]; show hist.length ≠ 255 * 30; rw [hh]; norm_num
  · rw [f2]; norm_num

/-- The orientation of a level vehicle that looks north (90° counter-clockwise from east). -/
noncomputable def lookNorth : Quat ℝ := ⟨Real.sqrt 2 / 2, 0, 0, Real.sqrt 2 / 2⟩

theorem lookNorth_yaw : getYawFromQuaternion lookNorth = 90 := by
  unfold getYawFromQuaternion lookNorth
  dsimp only
  have h : Real.sqrt 2 * Real.sqrt 2 = 2 := Real.mul_self_sqrt (by norm_num)
  have e1 : 2 * (Real.sqrt 2 / 2 * (Real.sqrt 2 / 2) + 0 * 0) = 1 := by linear_combination h / 2
  have e2 : 1 - 2 * (0 * 0 + Real.sqrt 2 / 2 * (Real.sqrt 2 / 2)) = 0 := by linear_combination -h / 2
  rw [e1, e2]
  unfold atan2 radToDeg
  have : (⟨0, 1⟩ : ℂ) = Complex.I := rfl
  rw [this, Complex.arg_I]
  field_simp
  norm_num

theorem cell_level (β : ℝ) : polarToHistogramIndex (⟨0, β, 1⟩ : PolarPoint ℝ) 6 = (⌊(wrap180 β + 180) / 6⌋, 15) := by
  have hw : wrapPolar (⟨0, β, 1⟩ : PolarPoint ℝ) = ⟨0, wrap180 β, 1⟩ := by
    unfold wrapPolar
    have : wrap180 (0 : ℝ) = 0 := wrap_small 0 (by norm_num) (by norm_num)
    dsimp only
    rw [this, if_neg (by norm_num), if_neg (by norm_num)]
    rfl
  obtain ⟨⟨a1, a2, -⟩, -⟩ := C01_wrap180_canonical β
  unfold polarToHistogramIndex
  dsimp only
  rw [hw]
  dsimp only
  have f1 : ⌊(0 : ℝ) / ((6 : ℕ) : ℝ) + 90 / ((6 : ℕ) : ℝ)⌋ = 15 := by
    rw [Int.floor_eq_iff]; norm_num
  have f2 : wrap180 β / ((6 : ℕ) : ℝ) + 180 / ((6 : ℕ) : ℝ) = (wrap180 β + 180) / 6 := by push_cast; ring
  rw [f1, f2]
  have l1 : 0 ≤ ⌊(wrap180 β + 180) / 6⌋ := Int.floor_nonneg.mpr (by linarith)
  have l2 : ⌊(wrap180 β + 180) / 6⌋ < 60 := Int.floor_lt.mpr (by push_cast; linarith)
  rw [if_neg (by norm_num; omega), if_neg (by omega), if_neg (by norm_num), if_neg (by norm_num)]

/-- **C96, the heading is drawn in the wrong place.** A vehicle that looks north is drawn as looking five columns (30°) west of that. (The angle
is converted from radians to degrees a second time; only a vehicle that looks east is always drawn right.) -/
theorem C96_heading_violated :
    (∀ q, getYawFromQuaternion q = 0 → polarToHistogramIndex (⟨0, drawnHeading q, 1⟩ : PolarPoint ℝ) 6 =
      polarToHistogramIndex (⟨0, 90 - getYawFromQuaternion q, 1⟩ : PolarPoint ℝ) 6) ∧
    polarToHistogramIndex (⟨0, 90 - getYawFromQuaternion lookNorth, 1⟩ : PolarPoint ℝ) 6 = (30, 15) ∧
    polarToHistogramIndex (⟨0, drawnHeading lookNorth, 1⟩ : PolarPoint ℝ) 6 = (25, 15) := by
  refine ⟨?_, ?_, ?_⟩
  · intro q hq
    unfold drawnHeading
    rw [hq]; norm_num
  · rw [lookNorth_yaw, cell_level, wrap_small _ (by norm_num) (by norm_num)]
    norm_num
  · have p1 := Real.pi_gt_d4
    have p2 := Real.pi_lt_d4
    have p0 := Real.pi_pos
    have hw : wrap180 (drawnHeading lookNorth) = drawnHeading lookNorth + 5040 := by
      have b1 : (5156 : ℝ) < 16200 / Real.pi := by rw [lt_div_iff₀ p0]; nlinarith
      have b2 : 16200 / Real.pi < (5157 : ℝ) := by rw [div_lt_iff₀ p0]; nlinarith
      have hd : drawnHeading lookNorth = 90 - 16200 / Real.pi := by
        unfold drawnHeading; rw [lookNorth_yaw]; ring
      refine ((C01_wrap180_canonical (drawnHeading lookNorth)).2 _ ?_ ?_ ⟨-14, ?_⟩).symm
      · rw [hd]; linarith
      · rw [hd]; linarith
      · push_cast; ring
    have b1 : (5156 : ℝ) < 16200 / Real.pi := by rw [lt_div_iff₀ p0]; nlinarith
    have b2 : 16200 / Real.pi < (5157 : ℝ) := by rw [div_lt_iff₀ p0]; nlinarith
    have hd : drawnHeading lookNorth = 90 - 16200 / Real.pi := by
      unfold drawnHeading; rw [lookNorth_yaw]; ring
    rw [cell_level, hw, hd]
    congr 1
    rw [Int.floor_eq_iff]
    push_cast
    constructor <;> linarith

end Avoidance
