import Verif.ProcessCloudProps

/-!
# C24 – exactly which points the processed cloud consists of
-/

namespace Avoidance

open Classical in
/-- The elements of a list, in order, that are wanted given the elements before them. -/
noncomputable def pick {A : Type*} (P : List A → A → Prop) (l : List A) : List A :=
  (l.zipIdx.filter fun x => decide (P (l.take x.2) x.1)).map Prod.fst

open Classical in
theorem pick_snoc {A : Type*} (P : List A → A → Prop) (l : List A) (a : A) :
    pick P (l ++ [a]) = pick P l ++ if P l a then [a] else [] := by
  unfold pick
  rw [List.zipIdx_append, List.filter_append, List.map_append]
  congr 1
  · congr 1
    refine List.filter_congr ?_
    intro x hx
    have := List.mem_zipIdx hx
    rw [List.take_append_of_le_length (by omega)]
  · simp only [List.zipIdx_cons, List.zipIdx_nil, Nat.zero_add]
    by_cases h : P l a
    · rw [List.filter_cons_of_pos (by simpa using h), if_pos h]
      rfl
    · rw [List.filter_cons_of_neg (by simpa using h), if_neg h]
      rfl

/-- The new point with which its cell reaches the required number. -/
def Completes (c : CloudParams) (before : List (V3 ℝ)) (p : V3 ℝ) : Prop :=
  ((before.filter fun q => cellOf c q = cellOf c p).length : ℤ) + 1 = c.min_points

/-- The first remembered point of its cell that may be carried over, in a cell without enough new points. -/
def Remembered (c : CloudParams) (clouds : List (List (V3 (Flt ℝ)))) (before : List (AgedPoint ℝ)) (o : AgedPoint ℝ) : Prop :=
  Carryable c o ∧ (newCount c clouds (cellOf c o.p) : ℤ) < c.min_points ∧
  ∀ y ∈ before, Carryable c y → cellOf c y.p ≠ cellOf c o.p

theorem new_exact (c : CloudParams) (l : List (V3 ℝ))
    (hl : ∀ p ∈ l, c.min_range * c.min_range < distSq c.position p ∧ distSq c.position p < c.max_range * c.max_range) :
    (∀ k, (l.foldl (fun s p => newPoint c s p.toFlt) ⟨fun _ => 0, []⟩).counter k = (l.filter (fun p => cellOf c p = k)).length) ∧
    (l.foldl (fun s p => newPoint c s p.toFlt) ⟨fun _ => 0, []⟩).out = (pick (Completes c) l).map fun p => ⟨p, 0⟩ := by
  classical
  induction l using List.reverseRecOn with
  | nil => exact ⟨fun _ => rfl, rfl⟩
  | append_singleton l p ih =>
    obtain ⟨i1, i2⟩ := ih (fun q hq => hl q (by simp [hq]))
    rw [List.foldl_append, List.foldl_cons, List.foldl_nil, pick_snoc, List.map_append, ← i2]
    generalize l.foldl (fun s p => newPoint c s p.toFlt) ⟨fun _ => 0, []⟩ = s at i1 i2 ⊢
    have e : newPoint c s p.toFlt =
        { counter := fun k => if k = cellOf c p then s.counter (cellOf c p) + 1 else s.counter k
          out := if s.counter (cellOf c p) + 1 = c.min_points then s.out ++ [⟨p, 0⟩] else s.out } := by
      simp only [newPoint, finite?_toFlt]; rw [if_pos (hl p (by simp))]
    rw [e]
    constructor
    · intro k
      dsimp only
      rw [List.filter_append, List.length_append]
      by_cases hk : k = cellOf c p
      · subst hk; simp [i1]
      · have : ¬ cellOf c p = k := fun h => hk h.symm
        simp [hk, this, i1]
    · dsimp only
      have hc : Completes c l p ↔ s.counter (cellOf c p) + 1 = c.min_points := by
        unfold Completes
        rw [i1]
      by_cases h : s.counter (cellOf c p) + 1 = c.min_points
      · rw [if_pos h, if_pos (hc.mpr h)]; rfl
      · rw [if_neg h, if_neg (fun x => h (hc.mp x))]; simp

theorem old_exact (c : CloudParams) (clouds : List (List (V3 (Flt ℝ)))) (s0 : CloudState)
    (h0 : ∀ k, s0.counter k = newCount c clouds k) (l : List (AgedPoint ℝ)) :
    (∀ k, (l.foldl (oldPoint c) s0).counter k < c.min_points ↔
      ((newCount c clouds k : ℤ) < c.min_points ∧ ∀ y ∈ l, Carryable c y → cellOf c y.p ≠ k)) ∧
    (l.foldl (oldPoint c) s0).out = s0.out ++ (pick (Remembered c clouds) l).map fun o => ⟨o.p, o.age + c.elapsed⟩ := by
  classical
  induction l using List.reverseRecOn with
  | nil => exact ⟨fun k => by simp [h0], by simp [pick]⟩
  | append_singleton l o ih =>
    obtain ⟨i1, i2⟩ := ih
    rw [List.foldl_append, List.foldl_cons, List.foldl_nil, pick_snoc, List.map_append, ← List.append_assoc, ← i2]
    generalize l.foldl (oldPoint c) s0 = s at i1 i2 ⊢
    have hr : Remembered c clouds l o ↔ Carryable c o ∧ s.counter (cellOf c o.p) < c.min_points := by
      unfold Remembered
      rw [i1]
    unfold oldPoint
    by_cases h : Carryable c o ∧ s.counter (cellOf c o.p) < c.min_points
    · rw [if_pos h.1.1]
      dsimp only
      rw [if_pos ⟨h.2, h.1.2⟩, if_pos (hr.mpr h)]
      refine ⟨?_, rfl⟩
      intro k
      dsimp only
      by_cases hk : k = cellOf c o.p
      · rw [if_pos hk]
        refine ⟨fun x => absurd x (lt_irrefl _), fun x => ?_⟩
        exact absurd hk.symm (x.2 o (by simp) h.1)
      · rw [if_neg hk, i1]
        refine and_congr_right fun _ => ⟨fun x y hy hc => ?_, fun x y hy hc => x y (by simp [hy]) hc⟩
        rcases List.mem_append.mp hy with hy | hy
        · exact x y hy hc
        · rw [List.mem_singleton] at hy
          rw [hy]
          exact fun e => hk e.symm
    · rw [if_neg (fun x => h (hr.mp x))]
      have e : (if distSq c.position o.p < c.max_range * c.max_range then
          if s.counter (cellOf c o.p) < c.min_points ∧ o.age < c.max_age ∧ pointInsideFOV c.fov (bodyDirection c o.p) = false then
            ({ counter := fun k => if k = cellOf c o.p then c.min_points else s.counter k, out := s.out ++ [⟨o.p, o.age + c.elapsed⟩] } : CloudState)
          else s else s) = s := by
        by_cases h1 : distSq c.position o.p < c.max_range * c.max_range
        · rw [if_pos h1, if_neg]
          intro h2
          exact h ⟨⟨h1, h2.2⟩, h2.1⟩
        · rw [if_neg h1]
      dsimp only
      rw [e]
      refine ⟨?_, by simp⟩
      intro k
      rw [i1]
      refine and_congr_right fun hk => ⟨fun x y hy hc => ?_, fun x y hy hc => x y (by simp [hy]) hc⟩
      rcases List.mem_append.mp hy with hy | hy
      · exact x y hy hc
      · rw [List.mem_singleton] at hy
        subst hy
        rintro rfl
        exact h ⟨hc, (i1 _).mpr ⟨hk, x⟩⟩

/-- **C24, exact.** With at least one sensor cloud, and for every minimum number of points (also zero or less), the processed cloud is:
for each cell that has them, the usable new point with which the cell reaches the minimum number, in the order of the clouds and
with age 0; then, for each cell without enough new points, the first remembered point of the cell that is in range, young
enough and outside the field of view, in the order of the memory and older by the elapsed time. -/
theorem C24_exact (c : CloudParams) (old : List (AgedPoint ℝ)) (clouds : List (List (V3 (Flt ℝ)))) (hne : clouds ≠ []) :
    processPointcloud c old clouds = some
      ((pick (Completes c) (usableNew c clouds)).map (fun p => ⟨p, 0⟩) ++
       (pick (Remembered c clouds) old).map fun o => ⟨o.p, o.age + c.elapsed⟩) := by
  have h1 := new_exact c (usableNew c clouds) (by
    intro p hp
    simpa using (List.mem_filter.1 hp).2)
  rw [← foldl_clouds] at h1
  have h2 := old_exact c clouds _ h1.1 old
  unfold processPointcloud
  dsimp only
  rw [if_neg hne, h2.2, h1.2]

/-- Non-vacuity: one sensor with one point in range, an empty memory. -/
example (c : CloudParams) (p : V3 ℝ) (hm : c.min_points = 1) (h1 : c.min_range * c.min_range < distSq c.position p)
    (h2 : distSq c.position p < c.max_range * c.max_range) : processPointcloud c [] [[p.toFlt]] = some [⟨p, 0⟩] := by
  have hu : usableNew c [[p.toFlt]] = [p] := by
    unfold usableNew
    simp [finite?_toFlt, h1, h2]
  have hc : Completes c [] p := by unfold Completes; rw [hm]; rfl
  rw [C24_exact c [] [[p.toFlt]] (by simp), hu]
  have hp : pick (Completes c) [p] = [p] := by
    have := pick_snoc (Completes c) [] p
    rw [if_pos hc] at this
    exact this
  rw [hp]
  rfl

end Avoidance
