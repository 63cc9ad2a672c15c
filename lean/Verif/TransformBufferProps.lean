import Verif.TransformBuffer
import Mathlib.Tactic.Linarith
import Mathlib.Tactic.Ring
import Mathlib.Tactic.FieldSimp
import Mathlib.Algebra.Order.Field.Basic
import Mathlib.Algebra.Order.Ring.Rat
import Mathlib.Data.List.Infix

/-!
# C17, C18, C19 – the transform buffer
-/
set_option linter.unusedSectionVars false

namespace Avoidance
variable {K R : Type*} [Field K] [LinearOrder K] [IsStrictOrderedRing K]

/-! ## Specification -/

/-- The transforms of `l` that are strictly newer than everything before them (`seen` holds
what came before `l`). -/
def recordsFrom (seen : List (Stamped K R)) : List (Stamped K R) → List (Stamped K R)
  | [] => []
  | t :: l =>
    if ∀ s ∈ seen, s.stamp < t.stamp then t :: recordsFrom (seen ++ [t]) l
    else recordsFrom (seen ++ [t]) l

/-- What a buffer of duration `size` must hold for a frame pair after receiving `h` for it: the
transforms that were newer than all before them and are not more than `size` older than
anything received. -/
def expected (size : ℤ) (h : List (Stamped K R)) : List (Stamped K R) :=
  (recordsFrom [] h).filter (fun r => ∀ s ∈ h, s.stamp - r.stamp ≤ size)

/-- The insertions made under the key `key`, in order. -/
def historyOf (key : String) (ops : List (Insertion K R)) : List (Stamped K R) :=
  (ops.filter (fun i => getKey i.source i.target = key)).map (·.t)

/-- The answers the API must give: true exactly for a transform newer than every earlier one
inserted under the same key. -/
def expectedAnswers (before : List (Insertion K R)) : List (Insertion K R) → List Bool
  | [] => []
  | i :: is =>
    decide (∀ s ∈ historyOf (getKey i.source i.target) before, s.stamp < i.t.stamp) ::
      expectedAnswers (before ++ [i]) is

/-! ## Lemmas -/

theorem recordsFrom_append (seen h : List (Stamped K R)) (t : Stamped K R) :
    recordsFrom seen (h ++ [t]) =
      recordsFrom seen h ++ (if ∀ s ∈ seen ++ h, s.stamp < t.stamp then [t] else []) := by
  induction h generalizing seen with
  | nil => simp [recordsFrom]
  | cons a l ih =>
    simp only [List.cons_append, recordsFrom, ih, List.append_assoc, List.nil_append]
    split_ifs <;> simp

theorem recordsFrom_subset {seen h : List (Stamped K R)} {r : Stamped K R}
    (hr : r ∈ recordsFrom seen h) : r ∈ h := by
  induction h generalizing seen with
  | nil => simp [recordsFrom] at hr
  | cons a l ih =>
    simp only [recordsFrom] at hr
    split_ifs at hr
    · rcases List.mem_cons.1 hr with rfl | hr
      · simp
      · exact List.mem_cons_of_mem _ (ih hr)
    · exact List.mem_cons_of_mem _ (ih hr)

theorem recordsFrom_gt {seen h : List (Stamped K R)} {r : Stamped K R}
    (hr : r ∈ recordsFrom seen h) : ∀ s ∈ seen, s.stamp < r.stamp := by
  induction h generalizing seen with
  | nil => simp [recordsFrom] at hr
  | cons a l ih =>
    simp only [recordsFrom] at hr
    split_ifs at hr with c
    · rcases List.mem_cons.1 hr with rfl | hr
      · exact c
      · exact fun s hs => ih hr s (by simp [hs])
    · exact fun s hs => ih hr s (by simp [hs])

theorem recordsFrom_sorted (seen h : List (Stamped K R)) :
    (recordsFrom seen h).Pairwise (fun a b => a.stamp < b.stamp) := by
  induction h generalizing seen with
  | nil => simp [recordsFrom]
  | cons a l ih =>
    simp only [recordsFrom]
    split_ifs
    · refine List.pairwise_cons.2 ⟨fun r hr => recordsFrom_gt hr a (by simp), ih _⟩
    · exact ih _

theorem expected_sorted (size : ℤ) (h : List (Stamped K R)) :
    (expected size h).Pairwise (fun a b => a.stamp < b.stamp) :=
  (recordsFrom_sorted [] h).filter _

/-- The newest record is the newest transform received. -/
theorem recordsFrom_last (h : List (Stamped K R)) (hne : h ≠ []) :
    ∃ m, (recordsFrom [] h).getLast? = some m ∧ ∀ s ∈ h, s.stamp ≤ m.stamp := by
  induction h using List.reverseRecOn with
  | nil => exact absurd rfl hne
  | append_singleton l t ih =>
    rw [recordsFrom_append]
    by_cases c : ∀ s ∈ [] ++ l, s.stamp < t.stamp
    · rw [if_pos c]
      refine ⟨t, by simp, ?_⟩
      intro s hs
      rcases List.mem_append.1 hs with hs | hs
      · exact le_of_lt (c s (by simpa using hs))
      · simp only [List.mem_singleton] at hs; subst hs; exact le_rfl
    · rw [if_neg c, List.append_nil]
      have hl : l ≠ [] := by rintro rfl; simp at c
      obtain ⟨m, hm, h2⟩ := ih hl
      refine ⟨m, hm, ?_⟩
      intro s hs
      rcases List.mem_append.1 hs with hs | hs
      · exact h2 s hs
      · simp only [List.mem_singleton] at hs; subst hs
        simp only [List.nil_append] at c
        push Not at c
        obtain ⟨q, hq, hq2⟩ := c
        exact le_trans hq2 (h2 q hq)

theorem expected_last {size : ℤ} (hs : 0 ≤ size) (h : List (Stamped K R)) (hne : h ≠ []) :
    ∃ m, (expected size h).getLast? = some m ∧ m ∈ h ∧ ∀ s ∈ h, s.stamp ≤ m.stamp := by
  obtain ⟨m, hm, h2⟩ := recordsFrom_last h hne
  have hmem : m ∈ recordsFrom [] h := List.mem_of_getLast? hm
  refine ⟨m, ?_, recordsFrom_subset hmem, h2⟩
  obtain ⟨l, hl⟩ := List.getLast?_eq_some_iff.1 hm
  unfold expected
  rw [hl, List.filter_append]
  have : List.filter (fun r => decide (∀ s ∈ h, s.stamp - r.stamp ≤ size)) [m] = [m] := by
    rw [List.filter_eq_self]
    intro r hr
    simp only [List.mem_singleton] at hr; subst hr
    simp only [decide_eq_true_eq]
    intro s hs'; have := h2 s hs'; omega
  rw [this]; simp

theorem popOld_eq (stamp size : ℤ) (l : List (Stamped K R)) (t : Stamped K R)
    (hs : 0 ≤ size) (ht : t.stamp = stamp)
    (hsorted : (l ++ [t]).Pairwise (fun a b => a.stamp < b.stamp)) :
    popOld stamp size (l ++ [t]) =
      some ((l ++ [t]).filter (fun r => stamp - r.stamp ≤ size)) := by
  induction l with
  | nil =>
    have : ¬ (stamp - t.stamp > size) := by omega
    have h' : stamp - t.stamp ≤ size := by omega
    have h'' : stamp ≤ size + t.stamp := by omega
    simp [popOld, h'', List.filter_cons]
  | cons a l ih =>
    rw [List.cons_append] at hsorted ⊢
    obtain ⟨h1, h2⟩ := List.pairwise_cons.1 hsorted
    unfold popOld
    by_cases c : stamp - a.stamp > size
    · rw [if_pos c, ih h2, List.filter_cons_of_neg]
      simp only [decide_eq_true_eq]; omega
    · rw [if_neg c]
      congr 1
      symm
      rw [List.filter_eq_self]
      intro r hr
      simp only [decide_eq_true_eq]
      rcases List.mem_cons.1 hr with rfl | hr
      · omega
      · have := h1 r hr; omega

/-- Refinement relation between the buffer and the history of insertions. -/
def BufInv (size : ℤ) (hist : List (Insertion K R)) (b : TBuffer K R) : Prop :=
  ∀ key, b key = if historyOf key hist = [] then none else some (expected size (historyOf key hist))

theorem historyOf_append (key : String) (ops : List (Insertion K R)) (i : Insertion K R) :
    historyOf key (ops ++ [i]) =
      historyOf key ops ++ (if getKey i.source i.target = key then [i.t] else []) := by
  unfold historyOf
  by_cases c : getKey i.source i.target = key <;> simp [List.filter_append, c]

theorem insert_step {size : ℤ} (hs : 0 ≤ size) {hist : List (Insertion K R)} {b : TBuffer K R}
    (hb : BufInv size hist b) (i : Insertion K R) :
    ∃ b', insertTransform size b i.source i.target i.t = some (b',
        decide (∀ s ∈ historyOf (getKey i.source i.target) hist, s.stamp < i.t.stamp)) ∧
      BufInv size (hist ++ [i]) b' := by
  set key := getKey i.source i.target with hkey
  set h := historyOf key hist with hh
  have hdq : (b key).getD [] = expected size h := by
    rw [hb key, ← hh]
    split_ifs with c
    · simp [c, expected, recordsFrom]
    · rfl
  have hcond : ((b key).getD []).getLast?.all (fun back => decide (back.stamp < i.t.stamp)) = true ↔
      ∀ s ∈ h, s.stamp < i.t.stamp := by
    rw [hdq]
    by_cases c : h = []
    · simp [c, expected, recordsFrom]
    · obtain ⟨m, hm, hmem, hmax⟩ := expected_last hs h c
      rw [hm]
      simp only [Option.all_some, decide_eq_true_eq]
      exact ⟨fun h1 s hs' => lt_of_le_of_lt (hmax s hs') h1, fun h1 => h1 m hmem⟩
  unfold insertTransform
  simp only [← hkey]
  by_cases c : ∀ s ∈ h, s.stamp < i.t.stamp
  · rw [if_pos (hcond.2 c)]
    have hsorted : ((b key).getD [] ++ [i.t]).Pairwise (fun a b => a.stamp < b.stamp) := by
      rw [hdq, List.pairwise_append]
      refine ⟨expected_sorted size h, by simp, ?_⟩
      intro r hr q hq
      simp only [List.mem_singleton] at hq; subst hq
      exact c r (recordsFrom_subset (List.mem_filter.1 hr).1)
    rw [popOld_eq _ size _ i.t hs rfl hsorted]
    refine ⟨_, by rw [decide_eq_true c], ?_⟩
    intro k
    dsimp only
    rw [historyOf_append]
    by_cases ck : k = key
    · subst ck
      have hk : getKey i.source i.target = key := hkey.symm
      rw [if_pos rfl, if_pos hk, ← hh, if_neg (by simp)]
      congr 1
      rw [hdq]
      have hrec : recordsFrom [] (h ++ [i.t]) = recordsFrom [] h ++ [i.t] := by
        rw [recordsFrom_append, if_pos]
        simpa using c
      unfold expected
      rw [hrec, List.filter_append, List.filter_append, List.filter_filter]
      congr 1
      · apply List.filter_congr
        intro r hr
        have hrh : r ∈ h := recordsFrom_subset hr
        rw [Bool.eq_iff_iff]
        simp only [Bool.and_eq_true, decide_eq_true_eq, List.mem_append, List.mem_singleton]
        constructor
        · rintro ⟨H1, H2⟩ s (hs | rfl)
          · exact H2 s hs
          · exact H1
        · intro H; exact ⟨H _ (Or.inr rfl), fun s hs => H s (Or.inl hs)⟩
      · apply List.filter_congr
        intro r hr
        simp only [List.mem_singleton] at hr; subst hr
        simp only [List.mem_append, List.mem_singleton, decide_eq_decide]
        constructor
        · rintro H s (hs' | rfl)
          · have := c s hs'; omega
          · omega
        · intro H; exact H _ (Or.inr rfl)
    · have : ¬ getKey i.source i.target = k := by rw [← hkey]; exact fun h => ck h.symm
      rw [if_neg ck, if_neg ck, if_neg this, List.append_nil]; exact hb k
  · rw [if_neg (fun h' => c (hcond.1 h'))]
    refine ⟨_, by rw [decide_eq_false c], ?_⟩
    intro k
    dsimp only
    rw [historyOf_append]
    by_cases ck : k = key
    · subst ck
      have hk : getKey i.source i.target = key := hkey.symm
      rw [if_pos rfl, if_pos hk, ← hh, if_neg (by simp)]
      congr 1
      rw [hdq]
      unfold expected
      rw [recordsFrom_append, if_neg (by simpa using c), List.append_nil]
      apply List.filter_congr
      intro r _
      push Not at c
      obtain ⟨q, hq, hq2⟩ := c
      simp only [List.mem_append, List.mem_singleton, decide_eq_decide]
      constructor
      · rintro H s (hs' | rfl)
        · exact H s hs'
        · have := H q hq; omega
      · intro H s hs'; exact H s (Or.inl hs')
    · have : ¬ getKey i.source i.target = k := by rw [← hkey]; exact fun h => ck h.symm
      rw [if_neg ck, if_neg this, List.append_nil]; exact hb k

theorem run_refines {size : ℤ} (hs : 0 ≤ size) (ops : List (Insertion K R)) :
    ∀ (hist : List (Insertion K R)) (b : TBuffer K R), BufInv size hist b →
    ∃ b', runInsertions size b ops = some (b', expectedAnswers hist ops) ∧
      BufInv size (hist ++ ops) b' := by
  induction ops with
  | nil => intro hist b hb; exact ⟨b, rfl, by simpa using hb⟩
  | cons i is ih =>
    intro hist b hb
    obtain ⟨b1, h1, h2⟩ := insert_step hs hb i
    obtain ⟨b2, h3, h4⟩ := ih (hist ++ [i]) b1 h2
    refine ⟨b2, ?_, by simpa using h4⟩
    simp only [runInsertions, h1, h3, expectedAnswers]

/-! ## Property theorems -/

/-- **C17 (refinement).** For every sequence of insertions into a fresh buffer of non-negative
duration: no undefined behaviour; each call answers true exactly when the transform is newer
than every earlier one inserted under its key; and under each key the buffer holds exactly the
expected window of the accepted transforms, in order (nothing at all under keys never used). -/
theorem C17_contents {size : ℤ} (hs : 0 ≤ size) (ops : List (Insertion K R)) :
    ∃ b, runInsertions size emptyBuffer ops = some (b, expectedAnswers [] ops) ∧
      ∀ key, b key =
        if historyOf key ops = [] then none else some (expected size (historyOf key ops)) := by
  obtain ⟨b, h1, h2⟩ := run_refines hs ops [] emptyBuffer (by intro key; simp [emptyBuffer, historyOf])
  exact ⟨b, h1, by simpa [BufInv] using h2⟩

/-- **C17 (ordered and bounded).** After any insertions each stored sequence has strictly
increasing stamps, spans at most the buffer duration and contains only inserted transforms. -/
theorem C17_ordered_bounded {size : ℤ} (hs : 0 ≤ size) (ops : List (Insertion K R))
    {b : TBuffer K R} {rs : List Bool} (hrun : runInsertions size emptyBuffer ops = some (b, rs))
    {key : String} {dq : List (Stamped K R)} (hdq : b key = some dq) :
    dq ≠ [] ∧ dq.Pairwise (fun a c => a.stamp < c.stamp) ∧
    (∀ a ∈ dq, ∀ c ∈ dq, c.stamp - a.stamp ≤ size) ∧
    ∀ a ∈ dq, ∃ i ∈ ops, getKey i.source i.target = key ∧ i.t = a := by
  obtain ⟨b', h1, h2⟩ := C17_contents hs ops
  rw [hrun] at h1; cases h1
  have h3 := h2 key
  rw [hdq] at h3
  split_ifs at h3 with c
  cases h3
  refine ⟨?_, expected_sorted _ _, ?_, ?_⟩
  · obtain ⟨m, hm, -⟩ := expected_last hs _ c
    intro h; rw [h] at hm; simp at hm
  · intro a ha d hd
    have h4 := (List.mem_filter.1 ha).2
    simp only [decide_eq_true_eq] at h4
    exact h4 d (recordsFrom_subset (List.mem_filter.1 hd).1)
  · intro a ha
    have := recordsFrom_subset (List.mem_filter.1 ha).1
    obtain ⟨i, hi, rfl⟩ := List.mem_map.1 this
    have hi' := List.mem_filter.1 hi
    exact ⟨i, hi'.1, by simpa using hi'.2, rfl⟩

/-- **C17 (rejection and isolation).** A rejected insertion leaves every stored sequence as it
was, and no insertion touches a sequence stored under another key. -/
theorem C17_insert_frame (size : ℤ) (b b' : TBuffer K R) (s t : String) (x : Stamped K R)
    (r : Bool) (h : insertTransform size b s t x = some (b', r)) :
    (∀ k, k ≠ getKey s t → b' k = b k) ∧
    (r = false → ∀ k, (b' k).getD [] = (b k).getD []) ∧
    (r = false ↔ ∃ back, ((b (getKey s t)).getD []).getLast? = some back ∧ x.stamp ≤ back.stamp) := by
  unfold insertTransform at h
  dsimp only at h
  have hcond : ∀ o : Option (Stamped K R), ¬ (o.all (fun back => decide (back.stamp < x.stamp)) = true)
      ↔ ∃ back, o = some back ∧ x.stamp ≤ back.stamp := by
    intro o; cases o <;> simp
  by_cases c : ((b (getKey s t)).getD []).getLast?.all (fun back => decide (back.stamp < x.stamp)) = true
  · rw [if_pos c] at h
    cases hp : popOld x.stamp size ((b (getKey s t)).getD [] ++ [x]) with
    | none => rw [hp] at h; simp at h
    | some d =>
      rw [hp] at h
      simp only [Option.some.injEq, Prod.mk.injEq] at h
      obtain ⟨rfl, rfl⟩ := h
      refine ⟨fun k hk => by simp [hk], by simp, ?_⟩
      rw [← hcond]; simp [c]
  · rw [if_neg c] at h
    simp only [Option.some.injEq, Prod.mk.injEq] at h
    obtain ⟨rfl, rfl⟩ := h
    refine ⟨fun k hk => by simp [hk], ?_, ?_⟩
    · intro _ k
      by_cases hk : k = getKey s t
      · subst hk; simp
      · simp [hk]
    · rw [← hcond]; simp [c]

/-- A negative buffer duration makes the very first insertion run `front()` on an empty deque. -/
theorem C17_negative_size_is_ub {size : ℤ} (hs : size < 0) (s t : String) (x : Stamped K R) :
    insertTransform size emptyBuffer s t x = none := by
  have : x.stamp - x.stamp > size := by omega
  simp only [insertTransform, emptyBuffer, Option.getD_none, List.getLast?_nil, Option.all_none,
    List.nil_append, popOld]
  rw [if_pos this]; simp

/-! ### C18 -/

/-- The interpolated transform at `time` between `a` and `c` (linear in the origin, the given
`slerp` in the rotation), written with the ratio `τ`. -/
def blend (slerp : R → R → K → R) (a c : Stamped K R) (time : ℤ) (τ : K) : Stamped K R :=
  ⟨time, ⟨a.origin.x * (1 - τ) + c.origin.x * τ, a.origin.y * (1 - τ) + c.origin.y * τ,
    a.origin.z * (1 - τ) + c.origin.z * τ⟩, slerp a.rot c.rot τ⟩

theorem scanBack_spec (slerp : R → R → K → R) (time : ℤ) (rest : List (Stamped K R)) :
    ∀ prev : Stamped K R, time ≤ prev.stamp → (prev :: rest).Pairwise (fun a b => a.stamp > b.stamp) →
    (scanBack slerp time prev rest = none ∧ ∀ a ∈ rest, time < a.stamp) ∨
    (∃ pre a c post, prev :: rest = pre ++ c :: a :: post ∧ a.stamp ≤ time ∧ time ≤ c.stamp ∧
      (∀ x ∈ rest, x ∈ pre ∨ x = c → time < x.stamp) ∧
      scanBack slerp time prev rest = some (blend slerp a c time
        (((time - a.stamp : ℤ) : K) / ((c.stamp - a.stamp : ℤ) : K)))) := by
  induction rest with
  | nil => intro prev _ _; left; exact ⟨rfl, by simp⟩
  | cons it rest ih =>
    intro prev hp hsort
    by_cases c : it.stamp ≤ time
    · right
      refine ⟨[], it, prev, rest, rfl, c, hp, ?_, ?_⟩
      · intro x hx hx'
        rcases hx' with hx' | rfl
        · simp at hx'
        · exact absurd ((List.pairwise_cons.1 hsort).1 x hx) (lt_irrefl _)
      · simp only [scanBack, if_pos c, interpolateTransform]
        rw [if_neg (by omega)]; rfl
    · have hsort' := (List.pairwise_cons.1 hsort).2
      rcases ih it (by omega) hsort' with ⟨h1, h2⟩ | ⟨pre, a, d, post, h1, h2, h3, h4, h5⟩
      · left
        refine ⟨by simp only [scanBack, if_neg c]; exact h1, ?_⟩
        intro a ha
        rcases List.mem_cons.1 ha with rfl | ha
        · omega
        · exact h2 a ha
      · right
        refine ⟨prev :: pre, a, d, post, by rw [h1]; rfl, h2, h3, ?_, ?_⟩
        · intro x hx hx'
          rcases List.mem_cons.1 hx with rfl | hxr
          · omega
          · rcases hx' with hx' | hx'
            · rcases List.mem_cons.1 hx' with rfl | hx''
              · have := (List.pairwise_cons.1 hsort).1 x hx; omega
              · exact h4 x hxr (Or.inl hx'')
            · exact h4 x hxr (Or.inr hx')
        · simp only [scanBack, if_neg c]; exact h5

/-- A buffer some history of insertions produces. -/
def ReachableBuffer (b : TBuffer K R) : Prop :=
  ∃ size : ℤ, 0 ≤ size ∧ ∃ ops rs, runInsertions size emptyBuffer ops = some (b, rs)

theorem getTransform_core (slerp : R → R → K → R) {b : TBuffer K R} {s t : String}
    {dq : List (Stamped K R)} (hdq : b (getKey s t) = some dq)
    (hsort : dq.Pairwise (fun a c => a.stamp < c.stamp)) (time : ℤ) :
    (getTransform slerp b s t time = none ∧
      (dq.length < 2 ∨ (∀ a ∈ dq, time < a.stamp) ∨ (∀ a ∈ dq, a.stamp < time))) ∨
    (∃ pre a c post, dq = pre ++ a :: c :: post ∧ a.stamp ≤ time ∧ time ≤ c.stamp ∧
      (post ≠ [] → time < c.stamp) ∧
      getTransform slerp b s t time = some (blend slerp a c time
        (((time - a.stamp : ℤ) : K) / ((c.stamp - a.stamp : ℤ) : K)))) := by
  unfold getTransform
  rw [hdq]
  dsimp only
  cases dq with
  | nil => left; simp
  | cons front tl =>
    cases hr : (front :: tl).reverse with
    | nil => simp at hr
    | cons back rest =>
      dsimp only
      have hrs : (back :: rest).Pairwise (fun a c => a.stamp > c.stamp) := by
        rw [← hr, List.pairwise_reverse]; exact hsort
      have hmem : ∀ x, x ∈ front :: tl ↔ x ∈ back :: rest := by
        intro x; rw [← hr, List.mem_reverse]
      by_cases c1 : back.stamp < time
      · rw [if_pos c1]
        left
        refine ⟨rfl, Or.inr (Or.inr ?_)⟩
        intro a ha
        rcases List.mem_cons.1 ((hmem a).1 ha) with rfl | ha
        · exact c1
        · have := (List.pairwise_cons.1 hrs).1 a ha; omega
      rw [if_neg c1]
      by_cases c2 : front.stamp > time
      · rw [if_pos c2]
        left
        refine ⟨rfl, Or.inr (Or.inl ?_)⟩
        intro a ha
        rcases List.mem_cons.1 ha with rfl | ha
        · exact c2
        · have := (List.pairwise_cons.1 hsort).1 a ha; omega
      rw [if_neg c2]
      rcases scanBack_spec slerp time rest back (by omega) hrs with ⟨h1, h2⟩ | ⟨pre, a, c, post, h1, h2, h3, h4, h5⟩
      · left
        refine ⟨h1, Or.inl ?_⟩
        have hf := (hmem front).1 (by simp)
        have hrest : front ∉ rest := fun hf' => by have := h2 front hf'; omega
        have hlen : (front :: tl).length = rest.length + 1 := by
          rw [← List.length_reverse, hr]; simp
        cases rest with
        | nil => simp at hlen; simp [hlen]
        | cons q qs =>
          exfalso
          -- the last element of the reversed list is `front`
          have h6 : (front :: tl) = (q :: qs).reverse ++ [back] := by
            have := congrArg List.reverse hr
            simpa using this
          have h7 : ∃ y ys, (q :: qs).reverse = y :: ys := by
            cases hq : (q :: qs).reverse with
            | nil => simp at hq
            | cons y ys => exact ⟨y, ys, rfl⟩
          obtain ⟨y, ys, hy⟩ := h7
          rw [hy] at h6
          simp only [List.cons_append, List.cons.injEq] at h6
          have : front ∈ (q :: qs).reverse := by rw [hy, h6.1]; simp
          exact hrest (List.mem_reverse.1 this)
      · right
        refine ⟨post.reverse, a, c, pre.reverse, ?_, h2, h3, ?_, h5⟩
        · have := congrArg List.reverse (hr.trans h1)
          simpa using this
        · intro hpre
          have hc : c ∈ rest := by
            cases pre with
            | nil => simp at hpre
            | cons p ps =>
              simp only [List.cons_append, List.cons.injEq] at h1
              rw [h1.2]; simp
          exact h4 c hc (Or.inr rfl)

/-- **C18 (no extrapolation).** A successful lookup at `time` in any reachable buffer is the blend
of two neighbouring stored transforms whose stamps enclose `time`, with a ratio in [0,1]
(so every coordinate of the result lies between the two stored ones). -/
theorem C18_no_extrapolation (slerp : R → R → K → R) {b : TBuffer K R} (hb : ReachableBuffer b)
    {s t : String} {time : ℤ} {r : Stamped K R} (h : getTransform slerp b s t time = some r) :
    ∃ dq pre a c post τ, b (getKey s t) = some dq ∧ dq = pre ++ a :: c :: post ∧
      a.stamp ≤ time ∧ time ≤ c.stamp ∧ a.stamp < c.stamp ∧ 0 ≤ τ ∧ τ ≤ 1 ∧
      τ * ((c.stamp - a.stamp : ℤ) : K) = ((time - a.stamp : ℤ) : K) ∧
      r = blend slerp a c time τ ∧
      (min a.origin.x c.origin.x ≤ r.origin.x ∧ r.origin.x ≤ max a.origin.x c.origin.x) ∧
      (min a.origin.y c.origin.y ≤ r.origin.y ∧ r.origin.y ≤ max a.origin.y c.origin.y) ∧
      (min a.origin.z c.origin.z ≤ r.origin.z ∧ r.origin.z ≤ max a.origin.z c.origin.z) := by
  obtain ⟨size, hs, ops, rs, hrun⟩ := hb
  cases hdq : b (getKey s t) with
  | none => simp [getTransform, hdq] at h
  | some dq =>
    obtain ⟨-, hsort, -, -⟩ := C17_ordered_bounded hs ops hrun hdq
    rcases getTransform_core slerp hdq hsort time with ⟨h1, -⟩ | ⟨pre, a, c, post, h1, h2, h3, -, h5⟩
    · rw [h1] at h; simp at h
    · rw [h5] at h
      simp only [Option.some.injEq] at h
      have hac : a.stamp < c.stamp := by
        rw [h1, List.pairwise_append] at hsort
        exact (List.pairwise_cons.1 hsort.2.1).1 c (by simp)
      have hpos : (0 : K) < ((c.stamp - a.stamp : ℤ) : K) := by exact_mod_cast (by omega)
      have hnum : (0 : K) ≤ ((time - a.stamp : ℤ) : K) := by exact_mod_cast (by omega)
      have hle : ((time - a.stamp : ℤ) : K) ≤ ((c.stamp - a.stamp : ℤ) : K) := by
        exact_mod_cast (by omega)
      have t0 : (0 : K) ≤ ((time - a.stamp : ℤ) : K) / ((c.stamp - a.stamp : ℤ) : K) :=
        div_nonneg hnum hpos.le
      have t1 : ((time - a.stamp : ℤ) : K) / ((c.stamp - a.stamp : ℤ) : K) ≤ 1 := by
        rw [div_le_one hpos]; exact hle
      have between : ∀ (p q τ : K), 0 ≤ τ → τ ≤ 1 →
          min p q ≤ p * (1 - τ) + q * τ ∧ p * (1 - τ) + q * τ ≤ max p q := by
        intro p q τ h0 h1
        have a1 : min p q * (1 - τ) ≤ p * (1 - τ) :=
          mul_le_mul_of_nonneg_right (min_le_left _ _) (by linarith)
        have a2 : min p q * τ ≤ q * τ := mul_le_mul_of_nonneg_right (min_le_right _ _) h0
        have a3 : p * (1 - τ) ≤ max p q * (1 - τ) :=
          mul_le_mul_of_nonneg_right (le_max_left _ _) (by linarith)
        have a4 : q * τ ≤ max p q * τ := mul_le_mul_of_nonneg_right (le_max_right _ _) h0
        constructor <;> nlinarith
      refine ⟨dq, pre, a, c, post, _, rfl, h1, h2, h3, hac, t0, t1,
        div_mul_cancel₀ _ hpos.ne', h.symm, ?_, ?_, ?_⟩ <;> rw [← h]
      · exact between _ _ _ t0 t1
      · exact between _ _ _ t0 t1
      · exact between _ _ _ t0 t1

/-- **C18 (when it succeeds).** A lookup succeeds exactly when the pair has at least two stored
transforms and the time is neither before the oldest nor after the newest of them.  In
particular a pair with a single stored transform is never answered, not even at its exact
stamp. -/
theorem C18_succeeds_iff (slerp : R → R → K → R) {b : TBuffer K R} (hb : ReachableBuffer b)
    (s t : String) (time : ℤ) :
    (getTransform slerp b s t time).isSome = true ↔
      ∃ dq, b (getKey s t) = some dq ∧ 2 ≤ dq.length ∧
        (∃ a ∈ dq, a.stamp ≤ time) ∧ (∃ c ∈ dq, time ≤ c.stamp) := by
  obtain ⟨size, hs, ops, rs, hrun⟩ := hb
  cases hdq : b (getKey s t) with
  | none => simp [getTransform, hdq]
  | some dq =>
    obtain ⟨-, hsort, -, -⟩ := C17_ordered_bounded hs ops hrun hdq
    rcases getTransform_core slerp hdq hsort time with ⟨h1, h2⟩ | ⟨pre, a, c, post, h1, h2, h3, -, h5⟩
    · rw [h1]
      simp only [Option.isSome_none, Bool.false_eq_true, Option.some.injEq, exists_eq_left',
        false_iff, not_and]
      rintro hlen ⟨a, ha, ha'⟩ ⟨c, hc, hc'⟩
      rcases h2 with h2 | h2 | h2
      · omega
      · have := h2 a ha; omega
      · have := h2 c hc; omega
    · rw [h5]
      simp only [Option.isSome_some, true_iff]
      exact ⟨dq, rfl, by rw [h1]; simp; omega, ⟨a, by rw [h1]; simp, h2⟩, ⟨c, by rw [h1]; simp, h3⟩⟩

/-- **C18 (exact stamps).** With at least two entries, asking for a stored stamp returns that
stored transform, for every `slerp` that is the identity at its two ends. -/
theorem C18_exact (slerp : R → R → K → R) (h0 : ∀ p q, slerp p q 0 = p) (h1 : ∀ p q, slerp p q 1 = q)
    {b : TBuffer K R} (hb : ReachableBuffer b) {s t : String} {dq : List (Stamped K R)}
    (hdq : b (getKey s t) = some dq) (hlen : 2 ≤ dq.length) {x : Stamped K R} (hx : x ∈ dq) :
    getTransform slerp b s t x.stamp = some x := by
  have hsucc := (C18_succeeds_iff slerp hb s t x.stamp).2
    ⟨dq, hdq, hlen, ⟨x, hx, le_rfl⟩, ⟨x, hx, le_rfl⟩⟩
  obtain ⟨size, hs, ops, rs, hrun⟩ := hb
  obtain ⟨-, hsort, -, -⟩ := C17_ordered_bounded hs ops hrun hdq
  rcases getTransform_core slerp hdq hsort x.stamp with ⟨h2, -⟩ | ⟨pre, a, c, post, h2, h3, h4, h6, h5⟩
  · rw [h2] at hsucc; simp at hsucc
  · have ha : a ∈ dq := by rw [h2]; simp
    have hc : c ∈ dq := by rw [h2]; simp
    have hac : a.stamp < c.stamp := by
      rw [h2, List.pairwise_append] at hsort
      exact (List.pairwise_cons.1 hsort.2.1).1 c (by simp)
    have hpos : ((c.stamp - a.stamp : ℤ) : K) ≠ 0 := by exact_mod_cast (by omega)
    rw [h5]
    -- `x` is `a` or `c`
    have hxac : x = a ∨ x = c := by
      rw [h2] at hx hsort
      rw [List.pairwise_append] at hsort
      obtain ⟨-, hs2, hs3⟩ := hsort
      rcases List.mem_append.1 hx with hx | hx
      · have := hs3 x hx a (by simp); omega
      · rcases List.mem_cons.1 hx with rfl | hx
        · exact Or.inl rfl
        · rcases List.mem_cons.1 hx with rfl | hx
          · exact Or.inr rfl
          · have := (List.pairwise_cons.1 (List.pairwise_cons.1 hs2).2).1 x hx; omega
    rcases hxac with rfl | rfl
    · simp [blend, h0]
    · rw [div_self hpos]
      simp [blend, h1]

/-- **C18 fails for a single transform**: the expected "the stored transform is returned at its
own stamp" is false after one insertion (10 s buffer). -/
theorem C18_single_entry_fails :
    ∃ (b : TBuffer ℚ Unit) (x : Stamped ℚ Unit),
      runInsertions 10000000000 emptyBuffer [⟨"camera", "local_origin", x⟩] = some (b, [true]) ∧
      (b (getKey "camera" "local_origin")) = some [x] ∧
      getTransform (fun _ _ _ => ()) b "camera" "local_origin" x.stamp = none := by
  refine ⟨_, ⟨5, ⟨1, 2, 3⟩, ()⟩, rfl, by decide, ?_⟩
  decide +kernel

/-! ### C19 -/

/-- **C19 is false of the code**: two different frame pairs share a key, hence a stored sequence. -/
theorem C19_keys_alias :
    ("a", "b_to_c") ≠ ("a_to_b", "c") ∧ getKey "a" "b_to_c" = getKey "a_to_b" "c" := by
  decide +kernel

/-- Consequence: a transform inserted for one pair is handed out for the other. -/
theorem C19_alias_observable :
    ∃ b : TBuffer ℚ Unit,
      (runInsertions 10 emptyBuffer
        [⟨"a", "b_to_c", ⟨0, ⟨1, 2, 3⟩, ()⟩⟩, ⟨"a", "b_to_c", ⟨2, ⟨1, 2, 3⟩, ()⟩⟩]).map (·.1) = some b ∧
      (getTransform (fun _ _ _ => ()) b "a_to_b" "c" 1).isSome = true := by
  refine ⟨_, rfl, ?_⟩
  decide +kernel

/-- **C19, partial**: keys identify frame pairs when the separator does not occur in the source
name followed by `_to` (so the first separator of the key is the real one).  Missing: names
that contain the separator, for which the claim is false. -/
theorem C19_keys_injective_partial (s₁ t₁ s₂ t₂ : String)
    (h₁ : ¬ "_to_".toList <:+: s₁.toList ++ "_to".toList)
    (h₂ : ¬ "_to_".toList <:+: s₂.toList ++ "_to".toList)
    (h : getKey s₁ t₁ = getKey s₂ t₂) : s₁ = s₂ ∧ t₁ = t₂ := by
  have key : ∀ a b c d : List Char, ¬ "_to_".toList <:+: c ++ "_to".toList →
      a ++ "_to_".toList ++ b = c ++ "_to_".toList ++ d → ¬ a.length < c.length := by
    intro a b c d hc he hl
    apply hc
    have e2 : c ++ "_to_".toList ++ d = (c ++ "_to".toList) ++ ("_".toList ++ d) := by simp
    have hp : a ++ "_to_".toList <+: c ++ "_to".toList := by
      apply List.prefix_of_prefix_length_le (l₃ := c ++ "_to_".toList ++ d)
      · rw [← he]; exact List.prefix_append _ _
      · rw [e2]; exact List.prefix_append _ _
      · simp; omega
    exact (List.infix_append' a "_to_".toList []).trans (by simpa using hp.isInfix)
  have hl : s₁.toList ++ "_to_".toList ++ t₁.toList = s₂.toList ++ "_to_".toList ++ t₂.toList := by
    have := congrArg String.toList h
    simpa [getKey, String.toList_append] using this
  have hlen : s₁.toList.length = s₂.toList.length := by
    have := key _ _ _ _ h₂ hl
    have := key _ _ _ _ h₁ hl.symm
    omega
  rw [List.append_assoc, List.append_assoc] at hl
  obtain ⟨e1, e2⟩ := List.append_inj hl hlen
  have e3 := List.append_cancel_left e2
  exact ⟨String.toList_inj.1 e1, String.toList_inj.1 e3⟩

/-- Non-vacuity of the partial theorem: the frame names of the launch files qualify. -/
example : ¬ "_to_".toList <:+: "front_camera_link".toList ++ "_to".toList := by decide +kernel

/-- Non-vacuity: five insertions, one rejected (stamp 5 after 7), one dropped for age. -/
example : (runInsertions (K := ℚ) (R := Unit) 10 emptyBuffer
    [⟨"a", "b", ⟨0, ⟨0, 0, 0⟩, ()⟩⟩, ⟨"a", "b", ⟨7, ⟨7, 0, 0⟩, ()⟩⟩, ⟨"a", "b", ⟨5, ⟨9, 0, 0⟩, ()⟩⟩,
      ⟨"a", "b", ⟨12, ⟨12, 0, 0⟩, ()⟩⟩, ⟨"a", "c", ⟨1, ⟨1, 1, 1⟩, ()⟩⟩]).map
      (fun r => (r.2, r.1 (getKey "a" "b"), getTransform (fun _ _ _ => ()) r.1 "a" "b" 8)) =
    some ([true, true, false, true, true],
      some [⟨7, ⟨7, 0, 0⟩, ()⟩, ⟨12, ⟨12, 0, 0⟩, ()⟩], some ⟨8, ⟨8, 0, 0⟩, ()⟩) := by
  decide +kernel

end Avoidance
