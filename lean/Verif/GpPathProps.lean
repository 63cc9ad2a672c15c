import Verif.GpPath
import Verif.GpBezierProps
import Verif.SimulatorProps
import Verif.GpFollowProps
import Mathlib.Tactic.FieldSimp

/-!
# C98: paths of the global planner: what is recorded of the flight, its length, its energy, its corners
-/

set_option linter.unusedSectionVars false

namespace Avoidance
namespace Global

/-! ## Specification -/

/-- The straight-line distance of two points. -/
noncomputable def straight (p q : V3 ℝ) : ℝ := Real.sqrt ((q.x - p.x) ^ 2 + (q.y - p.y) ^ 2 + (q.z - p.z) ^ 2)

/-- The legs of a path: its pairs of consecutive points. -/
def legs {A : Type*} (l : List A) : List (A × A) := l.zip l.tail

/-- Total length of the legs. -/
noncomputable def legLength (path : List (V3 ℝ)) : ℝ := ((legs path).map fun s => straight s.1 s.2).sum

/-- Total height climbed, not counting descents. -/
noncomputable def ascent (path : List (V3 ℝ)) : ℝ := ((legs path).map fun s => max 0 (s.2.z - s.1.z)).sum

section
variable {K : Type*} [Field K] [LinearOrder K] [IsStrictOrderedRing K]

/-- `p` is on the segment from `a` to `b`. -/
def OnSegment (a b p : V3 K) : Prop :=
  ∃ t : K, 0 ≤ t ∧ t ≤ 1 ∧ p.x = a.x + t * (b.x - a.x) ∧ p.y = a.y + t * (b.y - a.y) ∧ p.z = a.z + t * (b.z - a.z)

/-- `p` is on the curve made of the legs of the path. -/
def OnCurve (path : List (V3 K)) (p : V3 K) : Prop := ∃ s ∈ legs path, OnSegment s.1 s.2 p

/-- The point is a corner: the step towards it is not the step that follows. -/
def IsCorner (path : List (V3 K)) (i : ℕ) : Prop :=
  ∃ a b c, path[i - 1]? = some a ∧ path[i]? = some b ∧ path[i + 1]? = some c ∧
    ¬ (c.x - b.x = b.x - a.x ∧ c.y - b.y = b.y - a.y ∧ c.z - b.z = b.z - a.z)

end

/-! ## Loops over the legs -/

theorem loop_legs_aux {S A : Type*} (f : S → A → A → S) (l : List A) : ∀ (pre : List A) (a : A) (s : S),
    loopM (fun s i => ((pre ++ a :: l)[i - 1]?).bind fun p => ((pre ++ a :: l)[i]?).map fun q => f s p q) s
      (List.range' (pre.length + 1) l.length) = some (((a :: l).zip l).foldl (fun s pq => f s pq.1 pq.2) s) := by
  induction l with
  | nil => intro pre a s; simp [loopM]
  | cons b l ih =>
    intro pre a s
    rw [List.length_cons, List.range'_succ]
    simp only [loopM]
    have h1 : (pre ++ a :: b :: l)[pre.length + 1 - 1]? = some a := by simp
    have h2 : (pre ++ a :: b :: l)[pre.length + 1]? = some b := by
      rw [List.getElem?_append_right (by omega)]; simp
    rw [h1, h2]
    simp only [Option.bind_some, Option.map_some]
    have := ih (pre ++ [a]) b (f s a b)
    simp only [List.append_assoc, List.singleton_append, List.length_append, List.length_cons, List.length_nil, Nat.zero_add] at this
    rw [this]
    rfl

theorem loop_legs {S A : Type*} (f : S → A → A → S) (path : List A) (s : S) :
    loopM (fun s i => (path[i - 1]?).bind fun p => (path[i]?).map fun q => f s p q) s (List.range' 1 (path.length - 1)) =
      some ((legs path).foldl (fun s pq => f s pq.1 pq.2) s) := by
  cases path with
  | nil => rfl
  | cons a l => exact loop_legs_aux f l [] a s

theorem foldl_sum {A : Type*} {K : Type*} [AddCommMonoid K] (g : A → K) (l : List A) : ∀ s : K, l.foldl (fun s a => s + g a) s = s + (l.map g).sum := by
  induction l with
  | nil => intro s; simp
  | cons a l ih => intro s; rw [List.foldl_cons, ih, List.map_cons, List.sum_cons, add_assoc]

theorem dist3_straight (p q : V3 ℝ) : dist3 p q = straight p q := by
  unfold dist3 straight V3.norm V3.dot V3.minus
  congr 1
  ring

theorem straight_nonneg (p q : V3 ℝ) : 0 ≤ straight p q := Real.sqrt_nonneg _

theorem straight_triangle (p q r : V3 ℝ) : straight p r ≤ straight p q + straight q r := by
  rw [← dist3_straight, ← dist3_straight, ← dist3_straight]
  unfold dist3
  have h := V3.norm_add_le (q.minus p) (r.minus q)
  have e : (q.minus p).plus (r.minus q) = r.minus p := by
    simp only [V3.plus, V3.minus, V3.mk.injEq]
    refine ⟨?_, ?_, ?_⟩ <;> ring
  rw [e] at h
  exact h

theorem straight_self (p : V3 ℝ) : straight p p = 0 := by simp [straight]

theorem legLength_cons (a b : V3 ℝ) (l : List (V3 ℝ)) : legLength (a :: b :: l) = straight a b + legLength (b :: l) := by
  simp [legLength, legs]

theorem legLength_single (a : V3 ℝ) : legLength [a] = 0 := by simp [legLength, legs]

theorem legLength_nonneg (l : List (V3 ℝ)) : 0 ≤ legLength l := by
  apply List.sum_nonneg
  intro x hx
  obtain ⟨s, -, rfl⟩ := List.mem_map.mp hx
  exact straight_nonneg _ _

theorem legLength_drop (a b : V3 ℝ) (l : List (V3 ℝ)) : legLength (a :: l) ≤ straight a b + legLength (b :: l) := by
  cases l with
  | nil => rw [legLength_single, legLength_single, add_zero]; exact straight_nonneg _ _
  | cons c l =>
    rw [legLength_cons, legLength_cons]
    have := straight_triangle a b c
    linarith

theorem legLength_sublist_cons {l1 l2 : List (V3 ℝ)} (h : l1.Sublist l2) : ∀ a, legLength (a :: l1) ≤ legLength (a :: l2) := by
  induction h with
  | slnil => intro a; exact le_refl _
  | cons b _ ih =>
    intro a
    rw [legLength_cons]
    exact le_trans (legLength_drop a b _) (by have := ih b; linarith)
  | cons_cons b _ ih =>
    intro a
    rw [legLength_cons, legLength_cons]
    have := ih b
    linarith

theorem legLength_tail (a : V3 ℝ) (l : List (V3 ℝ)) : legLength l ≤ legLength (a :: l) := by
  cases l with
  | nil => exact legLength_nonneg _
  | cons b l => rw [legLength_cons]; have := straight_nonneg a b; linarith

theorem legLength_sublist {l1 l2 : List (V3 ℝ)} (h : l1.Sublist l2) : legLength l1 ≤ legLength l2 := by
  induction h with
  | slnil => exact le_refl _
  | cons b _ ih => exact le_trans ih (legLength_tail b _)
  | cons_cons b hs _ => exact legLength_sublist_cons hs b

/-! ## C98 -/

/-- **C98, the length of a path** is defined for every path and is the sum of its legs. It is never below the straight distance of two points
in the order of the path, and leaving out points never makes a path longer. -/
theorem C98_length (path : List (V3 ℝ)) :
    pathLength path = some (legLength path) ∧
      (∀ (i j : ℕ) (a b : V3 ℝ), i ≤ j → path[i]? = some a → path[j]? = some b → straight a b ≤ legLength path) ∧
      ∀ part : List (V3 ℝ), part.Sublist path → ∃ d, pathLength part = some d ∧ d ≤ legLength path := by
  have key : ∀ path : List (V3 ℝ), pathLength path = some (legLength path) := by
    intro path
    have h := loop_legs (fun (t : ℝ) p q => t + dist3 p q) path 0
    rw [show (legs path).foldl (fun (s : ℝ) pq => s + dist3 pq.1 pq.2) 0 = legLength path by
      rw [foldl_sum (fun pq : V3 ℝ × V3 ℝ => dist3 pq.1 pq.2), zero_add]
      simp only [dist3_straight]; rfl] at h
    exact h
  refine ⟨key path, ?_, fun part hp => ⟨_, key part, legLength_sublist hp⟩⟩
  intro i j a b hij ha hb
  rcases Nat.eq_or_lt_of_le hij with rfl | hlt
  · rw [ha] at hb
    obtain rfl := Option.some.inj hb
    rw [straight_self]; exact legLength_nonneg _
  · have hs : [a, b].Sublist path := by
      have hj : j < path.length := (List.getElem?_eq_some_iff.mp hb).1
      have h1 : path = path.take j ++ path.drop j := (List.take_append_drop j path).symm
      have h2 : a ∈ path.take j := by
        rw [List.mem_iff_getElem?]
        exact ⟨i, by rw [List.getElem?_take, if_pos hlt, ha]⟩
      have h3 : b ∈ path.drop j := by
        rw [List.mem_iff_getElem?]
        exact ⟨0, by rw [List.getElem?_drop, Nat.add_zero, hb]⟩
      rw [h1]
      exact List.Sublist.append (List.singleton_sublist.mpr h2) (List.singleton_sublist.mpr h3)
    have := legLength_sublist hs
    rwa [legLength_cons, legLength_single, add_zero] at this

theorem ascent_cons (a b : V3 ℝ) (l : List (V3 ℝ)) : ascent (a :: b :: l) = max 0 (b.z - a.z) + ascent (b :: l) := by
  simp [ascent, legs]

theorem ascent_climb (l : List (V3 ℝ)) : ∀ a b : V3 ℝ, (a :: l).getLast? = some b → b.z - a.z ≤ ascent (a :: l) ∧ 0 ≤ ascent (a :: l) := by
  induction l with
  | nil => intro a b h; simp at h; subst h; simp [ascent, legs]
  | cons c l ih =>
    intro a b h
    rw [ascent_cons]
    rw [List.getLast?_cons_cons] at h
    have := ih c b h
    have h1 := le_max_left 0 (c.z - a.z)
    have h2 := le_max_right 0 (c.z - a.z)
    constructor <;> linarith

/-- **C98, the energy of a path.** For a penalty that is not negative the energy is the length of the path plus the penalty for every metre climbed; descents
give nothing back. So it is at least the length, and at least the straight distance plus the penalty for the height gained. -/
theorem C98_energy (path : List (V3 ℝ)) (penalty : ℝ) (hp : 0 ≤ penalty) :
    ∃ e, pathEnergy path penalty = some e ∧ e = legLength path + penalty * ascent path ∧ legLength path ≤ e ∧
      ∀ a b, path.head? = some a → path.getLast? = some b → straight a b + penalty * max 0 (b.z - a.z) ≤ e := by
  have h := loop_legs (fun (t : ℝ) p q => t + dist3 p q + max 0 (penalty * (q.z - p.z))) path 0
  have hmax : ∀ x : ℝ, max 0 (penalty * x) = penalty * max 0 x := by
    intro x
    rcases le_total 0 x with hx | hx
    · rw [max_eq_right hx, max_eq_right (mul_nonneg hp hx)]
    · rw [max_eq_left hx, max_eq_left (mul_nonpos_of_nonneg_of_nonpos hp hx), mul_zero]
  have hsum : ∀ (l : List (V3 ℝ × V3 ℝ)) (t : ℝ), l.foldl (fun (s : ℝ) pq => s + dist3 pq.1 pq.2 + max 0 (penalty * (pq.2.z - pq.1.z))) t =
      t + (l.map fun s => straight s.1 s.2).sum + penalty * (l.map fun s => max 0 (s.2.z - s.1.z)).sum := by
    intro l
    induction l with
    | nil => intro t; simp
    | cons a l ih =>
      intro t
      rw [List.foldl_cons, ih, List.map_cons, List.map_cons, List.sum_cons, List.sum_cons, dist3_straight, hmax]
      ring
  rw [hsum, zero_add] at h
  refine ⟨_, h, rfl, ?_, ?_⟩
  · have : 0 ≤ ascent path := by
      apply List.sum_nonneg
      intro x hx
      obtain ⟨s, -, rfl⟩ := List.mem_map.mp hx
      exact le_max_left _ _
    have := mul_nonneg hp this
    show legLength path ≤ legLength path + penalty * ascent path
    linarith
  · intro a b ha hb
    show straight a b + penalty * max 0 (b.z - a.z) ≤ legLength path + penalty * ascent path
    have hl : straight a b ≤ legLength path := by
      cases path with
      | nil => simp at ha
      | cons c l =>
        rw [List.getLast?_eq_getElem?] at hb
        exact (C98_length (c :: l)).2.1 0 _ a b (Nat.zero_le _) (by simpa using ha) hb
    have hc : max 0 (b.z - a.z) ≤ ascent path := by
      cases path with
      | nil => simp at ha
      | cons c l =>
        simp at ha
        subst ha
        have := ascent_climb l c b hb
        exact max_le this.2 this.1
    have := mul_le_mul_of_nonneg_left hc hp
    linarith

/-- Non-vacuity of `C98_length` and `C98_energy`: 3 m east, then 4 m up; penalty 2. -/
example : pathLength [⟨0, 0, 0⟩, ⟨3, 0, 0⟩, ⟨3, 0, 4⟩] = some 7 ∧ pathEnergy [⟨0, 0, 0⟩, ⟨3, 0, 0⟩, ⟨3, 0, 4⟩] 2 = some 15 := by
  have h1 : straight ⟨0, 0, 0⟩ ⟨3, 0, 0⟩ = 3 := by
    unfold straight
    rw [show ((3 : ℝ) - 0) ^ 2 + (0 - 0) ^ 2 + (0 - 0) ^ 2 = 3 ^ 2 by norm_num, Real.sqrt_sq (by norm_num)]
  have h2 : straight ⟨3, 0, 0⟩ ⟨3, 0, 4⟩ = 4 := by
    unfold straight
    rw [show ((3 : ℝ) - 3) ^ 2 + (0 - 0) ^ 2 + (4 - 0) ^ 2 = 4 ^ 2 by norm_num, Real.sqrt_sq (by norm_num)]
  have h3 : legLength [⟨0, 0, 0⟩, ⟨3, 0, 0⟩, ⟨3, 0, 4⟩] = 7 := by
    rw [legLength_cons, legLength_cons, legLength_single, h1, h2]; norm_num
  obtain ⟨e, he, hv, -⟩ := C98_energy [⟨0, 0, 0⟩, ⟨3, 0, 0⟩, ⟨3, 0, 4⟩] 2 (by norm_num)
  refine ⟨by rw [(C98_length _).1, h3], ?_⟩
  rw [he, hv, h3, ascent_cons, ascent_cons]
  simp [ascent, legs]
  norm_num

/-! ### What is recorded of the flight -/

/-- **C98, the recorded flight.** After any sequence of position messages the recorded path consists of messages 0, 10, 20, …; the path was
published once for each of them, each time with what had been recorded until then. -/
theorem C98_recorded {P : Type*} (msgs : List P) :
    let r := msgs.foldl Recorder.position {}
    r.num_pos_msg = msgs.length ∧ r.actual_path.length = (msgs.length + 9) / 10 ∧ (∀ k, r.actual_path[k]? = msgs[10 * k]?) ∧
      r.published.length = r.actual_path.length ∧ (∀ k, k < r.actual_path.length → r.published[k]? = some (r.actual_path.take (k + 1))) ∧
      r.actual_path.Sublist msgs := by
  dsimp only
  induction msgs using List.reverseRecOn with
  | nil => simp
  | append_singleton msgs m ih =>
    rw [List.foldl_append, List.foldl_cons, List.foldl_nil]
    obtain ⟨r, hr⟩ : ∃ r, r = msgs.foldl Recorder.position {} := ⟨_, rfl⟩
    rw [← hr] at ih ⊢
    obtain ⟨i1, i2, i3, i4, i5, i6⟩ := ih
    have hlen : (msgs ++ [m]).length = msgs.length + 1 := by simp
    unfold Recorder.position
    dsimp only
    by_cases h : r.num_pos_msg % 10 = 0
    · rw [if_pos h]
      dsimp only
      rw [i1] at h
      refine ⟨by rw [i1, hlen], by rw [List.length_append, i2, hlen, List.length_singleton]; omega, ?_, ?_, ?_, i6.append (List.Sublist.refl _)⟩
      · intro k
        rcases Nat.lt_trichotomy k r.actual_path.length with hk | hk | hk
        · rw [List.getElem?_append_left hk, List.getElem?_append_left (by omega), i3]
        · rw [List.getElem?_append_right (by omega), List.getElem?_append_right (by omega), hk, Nat.sub_self, show 10 * r.actual_path.length - msgs.length = 0 by omega]
        · rw [List.getElem?_eq_none (by rw [List.length_append, List.length_singleton]; omega), List.getElem?_eq_none (by rw [hlen]; omega)]
      · rw [List.length_append, List.length_append, i4]; rfl
      · intro k hk
        rw [List.length_append, List.length_singleton] at hk
        rcases Nat.lt_or_ge k r.actual_path.length with hk' | hk'
        · rw [List.getElem?_append_left (by omega), i5 k hk', List.take_append_of_le_length (by omega)]
        · rw [List.getElem?_append_right (by omega), show k - r.published.length = 0 by omega, List.getElem?_cons_zero,
            List.take_of_length_le (by rw [List.length_append, List.length_singleton]; omega)]
    · rw [if_neg h]
      dsimp only
      rw [i1] at h
      refine ⟨by rw [i1, hlen], by rw [i2, hlen]; omega, ?_, i4, i5, i6.trans (List.sublist_append_left _ _)⟩
      intro k
      rw [i3]
      rcases Nat.lt_or_ge (10 * k) msgs.length with hk | hk
      · rw [List.getElem?_append_left hk]
      · rw [List.getElem?_eq_none hk, List.getElem?_eq_none (by rw [hlen]; omega)]

/-- **C98, the reported distance.** The travel distance reported is at most the length of the path through all positions received, and at least
the straight distance between the first and any recorded position. -/
theorem C98_reported (msgs : List (V3 ℝ)) :
    ∃ d, pathLength (msgs.foldl Recorder.position {}).actual_path = some d ∧ d ≤ legLength msgs ∧
      ∀ k a b, msgs[0]? = some a → msgs[10 * k]? = some b → straight a b ≤ d := by
  obtain ⟨-, -, h3, -, -, h6⟩ := C98_recorded msgs
  refine ⟨_, (C98_length _).1, legLength_sublist h6, ?_⟩
  intro k a b ha hb
  exact (C98_length _).2.1 0 k a b (Nat.zero_le _) (by rw [h3, Nat.mul_zero, ha]) (by rw [h3, hb])

/-- Non-vacuity of `C98_recorded`: of 25 messages three are kept. -/
example : ((List.range 25).foldl Recorder.position {}).actual_path = [0, 10, 20] ∧
    ((List.range 25).foldl Recorder.position {}).published = [[0], [0, 10], [0, 10, 20]] := by decide +kernel

/-! ### Corners -/

section
variable {K O : Type*} [Field K] [LinearOrder K] [IsStrictOrderedRing K]

/-- The interior points that `filterPathCorners` keeps, recursively. -/
def keepCorners : List (GPose K O) → List (GPose K O)
  | a :: b :: c :: l => if sameStep a.position b.position c.position then keepCorners (b :: c :: l) else b :: keepCorners (b :: c :: l)
  | _ => []

theorem loop_corners (l : List (GPose K O)) : ∀ (pre : List (GPose K O)) (a b : GPose K O) (s : List (GPose K O)),
    loopM (fun (corners : List (GPose K O)) i =>
      ((pre ++ a :: b :: l)[i - 1]?).bind fun last => ((pre ++ a :: b :: l)[i]?).bind fun curr => ((pre ++ a :: b :: l)[i + 1]?).map fun next =>
        if !sameStep last.position curr.position next.position then corners ++ [curr] else corners) s
      (List.range' (pre.length + 1) l.length) = some (s ++ keepCorners (a :: b :: l)) := by
  induction l with
  | nil => intro pre a b s; simp [loopM, keepCorners]
  | cons c l ih =>
    intro pre a b s
    rw [List.length_cons, List.range'_succ]
    simp only [loopM]
    have h1 : (pre ++ a :: b :: c :: l)[pre.length + 1 - 1]? = some a := by simp
    have h2 : (pre ++ a :: b :: c :: l)[pre.length + 1]? = some b := by
      rw [List.getElem?_append_right (by omega)]; simp
    have h3 : (pre ++ a :: b :: c :: l)[pre.length + 1 + 1]? = some c := by
      rw [List.getElem?_append_right (by omega), show pre.length + 1 + 1 - pre.length = 2 by omega]; simp
    rw [h1, h2, h3]
    simp only [Option.bind_some, Option.map_some]
    have := ih (pre ++ [a]) b c (if !sameStep a.position b.position c.position then s ++ [b] else s)
    simp only [List.append_assoc, List.singleton_append, List.length_append, List.length_cons, List.length_nil, Nat.zero_add] at this
    rw [this]
    by_cases h : sameStep a.position b.position c.position
    · simp [keepCorners, h]
    · simp [keepCorners, h]

theorem filterPathCorners_eq (a b : GPose K O) (l : List (GPose K O)) :
    filterPathCorners (a :: b :: l) = some (a :: (keepCorners (a :: b :: l) ++ [(b :: l).getLast (by simp)])) := by
  have h := loop_corners l [] a b [a]
  simp only [List.nil_append, List.length_nil, Nat.zero_add] at h
  unfold filterPathCorners
  rw [List.head?_cons, List.getLast?_eq_some_getLast (by simp : a :: b :: l ≠ [])]
  simp only [List.length_cons, Nat.add_sub_cancel]
  rw [h, Option.map_some, List.getLast_cons (by simp)]
  simp

theorem sameStep_iff (a b c : V3 K) : sameStep a b c = true ↔ c.x - b.x = b.x - a.x ∧ c.y - b.y = b.y - a.y ∧ c.z - b.z = b.z - a.z := by
  unfold sameStep
  simp [and_assoc]

theorem onCurve_cons (a b : V3 K) (l : List (V3 K)) (p : V3 K) : OnCurve (a :: b :: l) p ↔ OnSegment a b p ∨ OnCurve (b :: l) p := by
  simp [OnCurve, legs]

theorem onCurve_single (a p : V3 K) : ¬ OnCurve [a] p := by simp [OnCurve, legs]

/-- A segment through `b` is the two segments that meet in `b`. -/
theorem onSegment_split (c b d p : V3 K) (s : K) (h0 : 0 ≤ s) (h1 : s < 1) (hx : b.x - c.x = s * (d.x - c.x)) (hy : b.y - c.y = s * (d.y - c.y))
    (hz : b.z - c.z = s * (d.z - c.z)) : OnSegment c d p ↔ OnSegment c b p ∨ OnSegment b d p := by
  have h1' : (0 : K) < 1 - s := by linarith
  constructor
  · rintro ⟨t, t0, t1, px, py, pz⟩
    rcases le_total t s with h | h
    · left
      rcases h0.eq_or_lt with rfl | hs
      · have : t = 0 := le_antisymm h t0
        subst this
        exact ⟨0, le_refl _, zero_le_one, by rw [px]; ring, by rw [py]; ring, by rw [pz]; ring⟩
      · refine ⟨t / s, by positivity, (div_le_one hs).mpr h, ?_, ?_, ?_⟩
        · rw [px, hx]; field_simp
        · rw [py, hy]; field_simp
        · rw [pz, hz]; field_simp
    · right
      refine ⟨(t - s) / (1 - s), div_nonneg (by linarith) h1'.le, (div_le_one h1').mpr (by linarith), ?_, ?_, ?_⟩
      · have : b.x = c.x + s * (d.x - c.x) := by linarith
        rw [px, this]; field_simp; ring
      · have : b.y = c.y + s * (d.y - c.y) := by linarith
        rw [py, this]; field_simp; ring
      · have : b.z = c.z + s * (d.z - c.z) := by linarith
        rw [pz, this]; field_simp; ring
  · rintro (⟨t, t0, t1, px, py, pz⟩ | ⟨t, t0, t1, px, py, pz⟩)
    · refine ⟨t * s, by positivity, by nlinarith, ?_, ?_, ?_⟩
      · rw [px, hx]; ring
      · rw [py, hy]; ring
      · rw [pz, hz]; ring
    · refine ⟨s + t * (1 - s), by positivity, by nlinarith, ?_, ?_, ?_⟩
      · have : b.x = c.x + s * (d.x - c.x) := by linarith
        rw [px, this]; ring
      · have : b.y = c.y + s * (d.y - c.y) := by linarith
        rw [py, this]; ring
      · have : b.z = c.z + s * (d.z - c.z) := by linarith
        rw [pz, this]; ring

theorem corners_curve (l : List (GPose K O)) : ∀ (c : V3 K) (a b : GPose K O) (k : ℕ) (p : V3 K),
    a.position.x - c.x = (k : K) * (b.position.x - a.position.x) → a.position.y - c.y = (k : K) * (b.position.y - a.position.y) →
    a.position.z - c.z = (k : K) * (b.position.z - a.position.z) →
    (OnCurve (c :: (keepCorners (a :: b :: l) ++ [(b :: l).getLast (by simp)]).map (·.position)) p ↔
      OnSegment c b.position p ∨ OnCurve ((b :: l).map (·.position)) p) := by
  induction l with
  | nil =>
    intro c a b k p _ _ _
    simp only [keepCorners, List.nil_append, List.getLast_singleton, List.map_cons, List.map_nil]
    rw [onCurve_cons]
  | cons d l ih =>
    intro c a b k p hx hy hz
    rw [List.getLast_cons (by simp)]
    by_cases h : sameStep a.position b.position d.position
    · rw [keepCorners, if_pos h]
      obtain ⟨s1, s2, s3⟩ := (sameStep_iff _ _ _).mp h
      rw [ih c b d (k + 1) p (by push_cast; rw [s1]; linarith) (by push_cast; rw [s2]; linarith) (by push_cast; rw [s3]; linarith),
        List.map_cons, List.map_cons, List.map_cons, onCurve_cons, ← or_assoc]
      have hk : (0 : K) ≤ k := Nat.cast_nonneg k
      have hk2 : (0 : K) < (k : K) + 2 := by linarith
      rw [onSegment_split c b.position d.position p (((k : K) + 1) / ((k : K) + 2)) (by positivity) (by rw [div_lt_one hk2]; linarith)
        (by rw [div_mul_eq_mul_div, eq_div_iff hk2.ne']; linear_combination ((k : K) + 2 - (k + 1)) * hx - ((k : K) + 1) * s1)
        (by rw [div_mul_eq_mul_div, eq_div_iff hk2.ne']; linear_combination ((k : K) + 2 - (k + 1)) * hy - ((k : K) + 1) * s2)
        (by rw [div_mul_eq_mul_div, eq_div_iff hk2.ne']; linear_combination ((k : K) + 2 - (k + 1)) * hz - ((k : K) + 1) * s3)]
    · rw [keepCorners, if_neg h, List.cons_append, List.map_cons, onCurve_cons,
        ih b.position b d 0 p (by simp) (by simp) (by simp), List.map_cons, List.map_cons, List.map_cons, onCurve_cons]

/-- **C98, the corners of a path.** For a path of two points or more, the corners are its first point, its interior points at which the step
changes, and its last point, in this order. The curve through the corners is the curve through all the points. A path without points has no corners; a path of
one point gets it twice. -/
theorem C98_corners (msg : List (GPose K O)) :
    (msg = [] → filterPathCorners msg = some []) ∧ (∀ a, msg = [a] → filterPathCorners msg = some [a, a]) ∧
      (2 ≤ msg.length → ∃ first kept last, filterPathCorners msg = some (first :: (kept ++ [last])) ∧ msg.head? = some first ∧ msg.getLast? = some last ∧
        (∃ idx : List ℕ, idx.Pairwise (· < ·) ∧ kept.map some = idx.map (msg[·]?) ∧
          ∀ i, i ∈ idx ↔ 0 < i ∧ IsCorner (msg.map (·.position)) i) ∧
        ∀ p, OnCurve ((first :: (kept ++ [last])).map (·.position)) p ↔ OnCurve (msg.map (·.position)) p) := by
  refine ⟨fun h => by subst h; rfl, fun a h => by subst h; rfl, ?_⟩
  intro hlen
  match msg, hlen with
  | a :: b :: l, _ =>
    refine ⟨a, keepCorners (a :: b :: l), (b :: l).getLast (by simp), filterPathCorners_eq a b l, rfl, ?_, ?_, ?_⟩
    · rw [List.getLast?_eq_some_getLast (by simp : a :: b :: l ≠ []), List.getLast_cons (by simp)]
    · have key : ∀ (l pre : List (GPose K O)) (a b : GPose K O), ∃ idx : List ℕ, idx.Pairwise (· < ·) ∧
          (keepCorners (a :: b :: l)).map some = idx.map ((pre ++ a :: b :: l)[·]?) ∧
          ∀ i, i ∈ idx ↔ pre.length < i ∧ IsCorner ((pre ++ a :: b :: l).map (·.position)) i := by
        intro l
        induction l with
        | nil =>
          intro pre a b
          refine ⟨[], List.Pairwise.nil, rfl, ?_⟩
          intro i
          simp only [List.not_mem_nil, false_iff]
          rintro ⟨h, -, -, c, -, -, h3, -⟩
          rw [List.getElem?_eq_none (by simp; omega)] at h3
          cases h3
        | cons c l ih =>
          intro pre a b
          obtain ⟨idx, i1, i2, i3⟩ := ih (pre ++ [a]) b c
          simp only [List.append_assoc, List.singleton_append, List.length_append, List.length_cons, List.length_nil, Nat.zero_add] at i2 i3
          have g1 : ((pre ++ a :: b :: c :: l).map (·.position))[pre.length + 1 - 1]? = some a.position := by simp
          have g2' : (pre ++ a :: b :: c :: l)[pre.length + 1]? = some b := by
            rw [List.getElem?_append_right (by omega)]; simp
          have g2 : ((pre ++ a :: b :: c :: l).map (·.position))[pre.length + 1]? = some b.position := by
            rw [List.getElem?_map, g2']; rfl
          have g3 : ((pre ++ a :: b :: c :: l).map (·.position))[pre.length + 1 + 1]? = some c.position := by
            rw [List.getElem?_map, List.getElem?_append_right (by omega), show pre.length + 1 + 1 - pre.length = 2 by omega]; simp
          have hc : IsCorner ((pre ++ a :: b :: c :: l).map (·.position)) (pre.length + 1) ↔ ¬ sameStep a.position b.position c.position = true := by
            rw [sameStep_iff]
            unfold IsCorner
            rw [g1, g2, g3]
            constructor
            · rintro ⟨x, y, z, h1, h2, h3, h⟩
              rw [Option.some.injEq] at h1 h2 h3
              rw [← h1, ← h2, ← h3] at h
              exact h
            · intro h; exact ⟨_, _, _, rfl, rfl, rfl, h⟩
          by_cases h : sameStep a.position b.position c.position = true
          · refine ⟨idx, i1, by rw [keepCorners, if_pos h]; exact i2, ?_⟩
            intro i
            rw [i3]
            constructor
            · rintro ⟨h1, h2⟩; exact ⟨by omega, h2⟩
            · rintro ⟨h1, h2⟩
              refine ⟨?_, h2⟩
              by_contra hn
              have : i = pre.length + 1 := by omega
              subst this
              exact hc.mp h2 h
          · refine ⟨(pre.length + 1) :: idx, ?_, ?_, ?_⟩
            · rw [List.pairwise_cons]
              exact ⟨fun i hi => ((i3 i).mp hi).1, i1⟩
            · rw [keepCorners, if_neg h, List.map_cons, List.map_cons, i2, g2']
            · intro i
              rw [List.mem_cons, i3]
              constructor
              · rintro (rfl | ⟨h1, h2⟩)
                · exact ⟨by omega, hc.mpr h⟩
                · exact ⟨by omega, h2⟩
              · rintro ⟨h1, h2⟩
                by_cases hi : i = pre.length + 1
                · exact Or.inl hi
                · exact Or.inr ⟨by omega, h2⟩
      exact key l [] a b
    · intro p
      rw [List.map_cons, corners_curve l a.position a b 0 p (by simp) (by simp) (by simp), List.map_cons, List.map_cons, List.map_cons, onCurve_cons]

/-! ### Kinetic energy, curves -/

/-- The steps of a path. -/
def steps (path : List (V3 K)) : List (V3 K) := (legs path).map fun s => ⟨s.2.x - s.1.x, s.2.y - s.1.y, s.2.z - s.1.z⟩

theorem foldl_snoc {A B : Type*} (g : A → B) (l : List A) : ∀ s : List B, l.foldl (fun s a => s ++ [g a]) s = s ++ l.map g := by
  induction l with
  | nil => intro s; simp
  | cons a l ih => intro s; rw [List.foldl_cons, ih, List.map_cons, List.append_assoc]; rfl

theorem legs_of_short {A : Type*} (l : List A) (h : l.length < 2) : legs l = [] := by
  match l, h with
  | [], _ => rfl
  | [_], _ => rfl

/-- **C98, the kinetic energy of a path** is defined for every path: the sum, over successive steps and the three axes, of the change of the squared step. It is never
negative, and it is 0 exactly if no step is longer along an axis than another. -/
theorem C98_kinetic (path : List (V3 K)) :
    ∃ e, pathKineticEnergy path = some e ∧
      e = ((legs (steps path)).map fun s => |s.2.x ^ 2 - s.1.x ^ 2| + |s.2.y ^ 2 - s.1.y ^ 2| + |s.2.z ^ 2 - s.1.z ^ 2|).sum ∧ 0 ≤ e ∧
      (e = 0 ↔ ∀ s ∈ legs (steps path), |s.1.x| = |s.2.x| ∧ |s.1.y| = |s.2.y| ∧ |s.1.z| = |s.2.z|) := by
  have hnn : ∀ x ∈ (legs (steps path)).map fun s => |s.2.x ^ 2 - s.1.x ^ 2| + |s.2.y ^ 2 - s.1.y ^ 2| + |s.2.z ^ 2 - s.1.z ^ 2|, 0 ≤ x := by
    intro x hx
    obtain ⟨s, -, rfl⟩ := List.mem_map.mp hx
    positivity
  have hk : pathKineticEnergy path = some (((legs (steps path)).map fun s => |s.2.x ^ 2 - s.1.x ^ 2| + |s.2.y ^ 2 - s.1.y ^ 2| + |s.2.z ^ 2 - s.1.z ^ 2|).sum) := by
    unfold pathKineticEnergy
    by_cases h : path.length < 3
    · rw [if_pos h, legs_of_short (steps path) (by simp [steps, legs]; omega)]
      simp
    · rw [if_neg h]
      have h1 : loopM (fun (vel : List (V3 K)) i => (path[i]?).bind fun q => (path[i - 1]?).map fun p => vel ++ [⟨q.x - p.x, q.y - p.y, q.z - p.z⟩]) []
          (List.range' 1 (path.length - 1)) = some (steps path) := by
        have := loop_legs (fun (vel : List (V3 K)) p q => vel ++ [⟨q.x - p.x, q.y - p.y, q.z - p.z⟩]) path []
        rw [foldl_snoc (fun pq : V3 K × V3 K => (⟨pq.2.x - pq.1.x, pq.2.y - pq.1.y, pq.2.z - pq.1.z⟩ : V3 K))] at this
        rw [List.nil_append] at this
        rw [show some (steps path) = some ((legs path).map fun pq => (⟨pq.2.x - pq.1.x, pq.2.y - pq.1.y, pq.2.z - pq.1.z⟩ : V3 K)) from rfl, ← this]
        congr 1
        funext vel i
        cases path[i]? <;> cases path[i - 1]? <;> rfl
      rw [h1, Option.bind_some]
      have h2 := loop_legs (fun (t : K) u v => t + kineticTerm u.x v.x + kineticTerm u.y v.y + kineticTerm u.z v.z) (steps path) 0
      have h3 : (fun (total : K) i => ((steps path)[i]?).bind fun v => ((steps path)[i - 1]?).map fun u =>
          total + kineticTerm u.x v.x + kineticTerm u.y v.y + kineticTerm u.z v.z) = (fun (total : K) i => ((steps path)[i - 1]?).bind fun u => ((steps path)[i]?).map fun v =>
          total + kineticTerm u.x v.x + kineticTerm u.y v.y + kineticTerm u.z v.z) := by
        funext total i
        cases (steps path)[i]? <;> cases (steps path)[i - 1]? <;> rfl
      rw [h3, h2]
      have h4 : (fun (s : K) (pq : V3 K × V3 K) => s + kineticTerm pq.1.x pq.2.x + kineticTerm pq.1.y pq.2.y + kineticTerm pq.1.z pq.2.z) =
          fun s pq => s + (|pq.2.x ^ 2 - pq.1.x ^ 2| + |pq.2.y ^ 2 - pq.1.y ^ 2| + |pq.2.z ^ 2 - pq.1.z ^ 2|) := by
        funext s pq
        simp only [kineticTerm, pow_two]
        ring
      rw [h4, foldl_sum (fun pq : V3 K × V3 K => |pq.2.x ^ 2 - pq.1.x ^ 2| + |pq.2.y ^ 2 - pq.1.y ^ 2| + |pq.2.z ^ 2 - pq.1.z ^ 2|), zero_add]
  refine ⟨_, hk, rfl, List.sum_nonneg hnn, ?_⟩
  have habs : ∀ u v : K, |v ^ 2 - u ^ 2| = 0 ↔ |u| = |v| := by
    intro u v
    rw [abs_eq_zero, sub_eq_zero, eq_comm, sq_eq_sq_iff_abs_eq_abs]
  have hz : ∀ l : List K, (∀ x ∈ l, 0 ≤ x) → (l.sum = 0 ↔ ∀ x ∈ l, x = 0) := by
    intro l
    induction l with
    | nil => intro _; simp
    | cons a l ih =>
      intro hl
      have ha := hl a (by simp)
      have hl' : ∀ x ∈ l, 0 ≤ x := fun x hx => hl x (by simp [hx])
      have hs := List.sum_nonneg hl'
      rw [List.sum_cons, List.forall_mem_cons, ← ih hl']
      constructor
      · intro h; exact ⟨by linarith, by linarith⟩
      · rintro ⟨h1, h2⟩; rw [h1, h2, add_zero]
  rw [hz _ hnn]
  constructor
  · intro h s hs
    have := h _ (List.mem_map.mpr ⟨s, hs, rfl⟩)
    have a1 := abs_nonneg (s.2.x ^ 2 - s.1.x ^ 2)
    have a2 := abs_nonneg (s.2.y ^ 2 - s.1.y ^ 2)
    have a3 := abs_nonneg (s.2.z ^ 2 - s.1.z ^ 2)
    exact ⟨(habs _ _).mp (by linarith), (habs _ _).mp (by linarith), (habs _ _).mp (by linarith)⟩
  · intro h x hx
    obtain ⟨s, hs, rfl⟩ := List.mem_map.mp hx
    obtain ⟨e1, e2, e3⟩ := h s hs
    rw [(habs _ _).mpr e1, (habs _ _).mpr e2, (habs _ _).mpr e3]
    simp

/-- **C98, a path of three poses as a curve.** With at least one step, a path of three poses becomes a curve from the first to the last pose within the triangle of
the three, all poses with the orientation of the first; any other path is returned as it is. -/
theorem C98_bezier_path (path : List (GPose K O)) (n : ℕ) (hn : 0 < n) :
    (path.length ≠ 3 → threePointBezierPath path n = some path) ∧
      ∀ a b c, path = [a, b, c] → ∃ l, threePointBezierPath path n = some l ∧ l.length = n + 1 ∧ l.head? = some a ∧
        l.getLast? = some ⟨c.position, a.orientation⟩ ∧ ∀ q ∈ l, q.orientation = a.orientation ∧ InTriangle a.position b.position c.position q.position := by
  constructor
  · intro h
    match path, h with
    | [], _ => rfl
    | [_], _ => rfl
    | [_, _], _ => rfl
    | [_, _, _], h => exact absurd rfl h
    | _ :: _ :: _ :: _ :: _, _ => rfl
  · rintro a b c rfl
    obtain ⟨l, l1, l2, l3, l4, l5⟩ := C61_sampled a.position b.position c.position n hn
    refine ⟨l.map fun p => ⟨p, a.orientation⟩, ?_, by rw [List.length_map, l2], ?_, ?_, ?_⟩
    · unfold threePointBezierPath
      dsimp only
      rw [l1, Option.map_some]
    · rw [List.head?_map, l3]; rfl
    · rw [List.getLast?_map, l4]; rfl
    · intro q hq
      obtain ⟨p, hp, rfl⟩ := List.mem_map.mp hq
      exact ⟨rfl, l5 p hp⟩

end

/-- Non-vacuity of `C98_corners`: two steps east, then two steps north. -/
example : filterPathCorners ([⟨⟨0, 0, 0⟩, 1⟩, ⟨⟨1, 0, 0⟩, 2⟩, ⟨⟨2, 0, 0⟩, 3⟩, ⟨⟨2, 1, 0⟩, 4⟩, ⟨⟨2, 2, 0⟩, 5⟩] : List (GPose ℚ ℕ)) =
    some [⟨⟨0, 0, 0⟩, 1⟩, ⟨⟨2, 0, 0⟩, 3⟩, ⟨⟨2, 2, 0⟩, 5⟩] := by decide +kernel

/-- Non-vacuity of `C98_kinetic`: a straight path of equal steps, and a stop. -/
example : pathKineticEnergy ([⟨0, 0, 0⟩, ⟨2, 0, 0⟩, ⟨4, 0, 0⟩] : List (V3 ℚ)) = some 0 ∧
    pathKineticEnergy ([⟨0, 0, 0⟩, ⟨2, 0, 0⟩, ⟨2, 0, 0⟩] : List (V3 ℚ)) = some 4 := by decide +kernel

/-- Non-vacuity of `C98_bezier_path`. -/
example : threePointBezierPath ([⟨⟨0, 0, 0⟩, 1⟩, ⟨⟨1, 0, 0⟩, 2⟩, ⟨⟨1, 1, 0⟩, 3⟩] : List (GPose ℚ ℕ)) 2 =
    some [⟨⟨0, 0, 0⟩, 1⟩, ⟨⟨3 / 4, 1 / 4, 0⟩, 1⟩, ⟨⟨1, 1, 0⟩, 1⟩] := by decide +kernel

theorem corners_length {O : Type*} (l : List (GPose ℝ O)) : ∀ (c : V3 ℝ) (a b : GPose ℝ O) (k : ℕ),
    a.position.minus c = (b.position.minus a.position).smul k →
    legLength (c :: (keepCorners (a :: b :: l) ++ [(b :: l).getLast (by simp)]).map (·.position)) =
      straight c a.position + straight a.position b.position + legLength ((b :: l).map (·.position)) := by
  have hcol : ∀ (c a b : V3 ℝ) (k : ℕ), a.minus c = (b.minus a).smul k → straight c b = straight c a + straight a b := by
    intro c a b k h
    rw [← dist3_straight, ← dist3_straight, ← dist3_straight]
    unfold dist3
    have h2 : b.minus c = (b.minus a).smul ((k : ℝ) + 1) := by
      simp only [V3.minus, V3.smul, V3.mk.injEq] at h ⊢
      obtain ⟨h1, h2, h3⟩ := h
      refine ⟨?_, ?_, ?_⟩ <;> linarith
    rw [h, h2, V3.norm_smul, V3.norm_smul, abs_of_nonneg (by positivity), abs_of_nonneg (by positivity)]
    ring
  induction l with
  | nil =>
    intro c a b k h
    simp only [keepCorners, List.nil_append, List.getLast_singleton, List.map_cons, List.map_nil]
    rw [legLength_cons, legLength_single, hcol c a.position b.position k h, add_zero]
  | cons d l ih =>
    intro c a b k h
    rw [List.getLast_cons (by simp)]
    by_cases hs : sameStep a.position b.position d.position
    · rw [keepCorners, if_pos hs]
      obtain ⟨s1, s2, s3⟩ := (sameStep_iff _ _ _).mp hs
      rw [ih c b d (k + 1) (by
        simp only [V3.minus, V3.smul, V3.mk.injEq] at h ⊢
        obtain ⟨h1, h2, h3⟩ := h
        push_cast
        rw [s1, s2, s3]
        refine ⟨?_, ?_, ?_⟩ <;> linarith), hcol c a.position b.position k h, List.map_cons, List.map_cons, List.map_cons, legLength_cons]
      ring
    · rw [keepCorners, if_neg hs, List.cons_append, List.map_cons, legLength_cons, ih b.position b d 0 (by simp [V3.minus, V3.smul]),
        hcol c a.position b.position k h, straight_self, List.map_cons, List.map_cons, List.map_cons, legLength_cons]
      ring

/-- **C98, the corners of a path have its length.** -/
theorem C98_corners_length {O : Type*} (msg : List (GPose ℝ O)) :
    ∃ corners d, filterPathCorners msg = some corners ∧ pathLength (corners.map (·.position)) = some d ∧ pathLength (msg.map (·.position)) = some d := by
  match msg with
  | [] => exact ⟨[], 0, rfl, rfl, rfl⟩
  | [a] =>
    refine ⟨[a, a], 0, rfl, ?_, rfl⟩
    rw [(C98_length _).1]
    simp only [List.map_cons, List.map_nil]
    rw [legLength_cons, legLength_single, straight_self, add_zero]
  | a :: b :: l =>
    refine ⟨_, _, filterPathCorners_eq a b l, (C98_length _).1, ?_⟩
    have hc := corners_length l a.position a b 0 (by simp [V3.minus, V3.smul])
    rw [straight_self, zero_add] at hc
    rw [(C98_length _).1, List.map_cons (l := keepCorners (a :: b :: l) ++ _), hc, List.map_cons, List.map_cons, legLength_cons]

/-- **C98, the time of a leg.** From rest, with the given acceleration above 0, the distance of the leg is covered in the time computed. -/
theorem C98_duration (p q : V3 ℝ) (acc : ℝ) (ha : 0 < acc) : 0 ≤ getDuration p q acc ∧ acc * getDuration p q acc ^ 2 / 2 = straight p q := by
  refine ⟨Real.sqrt_nonneg _, ?_⟩
  unfold getDuration
  rw [Real.sq_sqrt (div_nonneg (mul_nonneg (by norm_num) (dist3_nonneg p q)) ha.le), dist3_straight]
  field_simp

/-- Non-vacuity of `C98_duration`: 2 m at 1 m/s² take 2 s. -/
example : getDuration ⟨0, 0, 0⟩ ⟨2, 0, 0⟩ 1 = 2 := by
  unfold getDuration
  rw [dist3_straight, straight, show ((2 : ℝ) - 0) ^ 2 + (0 - 0) ^ 2 + (0 - 0) ^ 2 = 2 ^ 2 by norm_num, Real.sqrt_sq (by norm_num),
    show (2 : ℝ) * 2 / 1 = 2 ^ 2 by norm_num, Real.sqrt_sq (by norm_num)]

end Global
end Avoidance
