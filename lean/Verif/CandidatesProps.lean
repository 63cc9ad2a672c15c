import Verif.Candidates
import Mathlib.Tactic.Linarith
import Mathlib.Data.List.Sort

/-!
# C27: the candidate list is the list of the `k` cheapest directions, cheapest first
-/

namespace Avoidance
section
variable {K : Type*} [Field K] [LinearOrder K] [IsStrictOrderedRing K]
variable {Q : PriorityQueue (Candidate K) Candidate.lt}

/-- One candidate per matrix cell, row by row. -/
def allCandidates (cost : ℕ → ℕ → K) (rows cols : ℕ) : List (Candidate K) :=
  (List.range rows).flatMap fun e => (List.range cols).map fun z => ⟨cost e z,
      (histogramIndexToPolar (K := K) e z 6 1).e, (histogramIndexToPolar (K := K) e z 6 1).z⟩

/-- `best` consists of the `n` cheapest entries of `all` (all of them if there are fewer), cheapest
first. -/
def IsBest (n : ℕ) (all best : List (Candidate K)) : Prop :=
  best.length = min n all.length ∧
  best.Pairwise (fun a b => a.cost ≤ b.cost) ∧
  ∃ rest, (best ++ rest).Perm all ∧ ∀ x ∈ best, ∀ y ∈ rest, x.cost ≤ y.cost

/-- Loop invariant of the scan. -/
def ScanInv (n : ℕ) (bag seen : Multiset (Candidate K)) : Prop :=
  bag.card = min n seen.card ∧
  ∃ rest, bag + rest = seen ∧ ∀ x ∈ bag, ∀ y ∈ rest, x.cost ≤ y.cost

theorem offer_inv {n : ℕ} (hn : 0 < n) {q : Q.State} {seen : Multiset (Candidate K)}
    (h : ScanInv n (Q.bag q) seen) (c : Candidate K) :
    ∃ q', offer Q n q c = some q' ∧ ScanInv n (Q.bag q') (c ::ₘ seen) := by
  obtain ⟨h1, rest, h2, h3⟩ := h
  unfold offer
  by_cases hlt : (Q.bag q).card < n
  · rw [if_pos hlt]
    refine ⟨_, rfl, ?_⟩
    have hc : (Q.bag q).card + rest.card = seen.card := by rw [← h2, Multiset.card_add]
    have hr : rest = 0 := Multiset.card_eq_zero.1 (by omega)
    subst hr
    refine ⟨?_, 0, ?_, by simp⟩
    · rw [Q.bag_push, Multiset.card_cons, Multiset.card_cons]; omega
    · rw [Q.bag_push, ← h2]; simp
  · rw [if_neg hlt]
    have hne : Q.bag q ≠ 0 := by intro h0; rw [h0] at hlt; simp at hlt; omega
    obtain ⟨t, t1, t2, t3, -⟩ := Q.top_some q hne
    have tmax : ∀ x ∈ Q.bag q, x.cost ≤ t.cost := fun x hx => not_lt.1 (t3 x hx)
    rw [t1, Option.bind_some]
    by_cases hct : c.cost < t.cost
    · rw [if_pos hct]
      refine ⟨_, rfl, ?_⟩
      have hne' : Q.bag (Q.push q c) ≠ 0 := by rw [Q.bag_push]; simp
      obtain ⟨m, -, m2, m3, m4⟩ := Q.top_some (Q.push q c) hne'
      rw [Q.bag_push] at m2 m3 m4
      have mmax : ∀ x ∈ c ::ₘ Q.bag q, x.cost ≤ m.cost := fun x hx => not_lt.1 (m3 x hx)
      refine ⟨?_, m ::ₘ rest, ?_, ?_⟩
      · rw [m4, Multiset.card_erase_of_mem m2, Multiset.card_cons, Multiset.card_cons]
        simp only [Nat.pred_succ]; omega
      · rw [m4, Multiset.add_cons, ← Multiset.cons_add, Multiset.cons_erase m2, Multiset.cons_add, h2]
      · intro x hx y hy
        rw [m4] at hx
        have hx' := Multiset.mem_of_mem_erase hx
        rcases Multiset.mem_cons.1 hy with rfl | hy
        · exact mmax x hx'
        · rcases Multiset.mem_cons.1 hx' with rfl | hx''
          · exact hct.le.trans (h3 t t2 y hy)
          · exact h3 x hx'' y hy
    · rw [if_neg hct]
      refine ⟨_, rfl, ?_, c ::ₘ rest, ?_, ?_⟩
      · rw [Multiset.card_cons]; omega
      · rw [Multiset.add_cons, h2]
      · intro x hx y hy
        rcases Multiset.mem_cons.1 hy with rfl | hy
        · exact (tmax x hx).trans (not_lt.1 hct)
        · exact h3 x hx y hy

theorem scan_inv {n : ℕ} (hn : 0 < n) (cs : List (Candidate K)) :
    ∀ (q : Q.State) (seen : Multiset (Candidate K)), ScanInv n (Q.bag q) seen →
    ∃ q', loopM (offer Q n) q cs = some q' ∧ ScanInv n (Q.bag q') (seen + cs) := by
  induction cs with
  | nil => intro q seen h; exact ⟨q, rfl, by simpa using h⟩
  | cons c cs ih =>
    intro q seen h
    obtain ⟨q', h1, h2⟩ := offer_inv hn h c
    obtain ⟨q'', h3, h4⟩ := ih q' _ h2
    refine ⟨q'', by simp only [loopM, h1, Option.bind_some]; exact h3, ?_⟩
    rw [← Multiset.cons_coe, Multiset.add_cons, ← Multiset.cons_add]
    exact h4

theorem drain_spec (n : ℕ) : ∀ q : Q.State, (Q.bag q).card = n →
    ((drain Q n q : List (Candidate K)) : Multiset (Candidate K)) = Q.bag q ∧
      (drain Q n q).Pairwise (fun a b => b.cost ≤ a.cost) := by
  induction n with
  | zero => intro q h; simp [drain, (Multiset.card_eq_zero.1 h)]
  | succ n ih =>
    intro q h
    have hne : Q.bag q ≠ 0 := by intro h0; rw [h0] at h; simp at h
    obtain ⟨m, m1, m2, m3, m4⟩ := Q.top_some q hne
    have hc : (Q.bag (Q.pop q)).card = n := by
      rw [m4, Multiset.card_erase_of_mem m2, h]; rfl
    obtain ⟨i1, i2⟩ := ih (Q.pop q) hc
    have e : drain Q (n + 1) q = m :: drain Q n (Q.pop q) := by simp only [drain, m1]
    rw [e]
    refine ⟨?_, List.pairwise_cons.2 ⟨?_, i2⟩⟩
    · rw [← Multiset.cons_coe, i1, m4, Multiset.cons_erase m2]
    · intro b hb
      have : b ∈ Q.bag (Q.pop q) := by rw [← i1]; simpa using hb
      rw [m4] at this
      exact not_lt.1 (m3 b (Multiset.mem_of_mem_erase this))

/-- **C27.** For every cost matrix, every `n ≥ 1` and every conforming priority queue the result is
the list of the `n` cheapest directions (all of them if the matrix has fewer cells), cheapest first. -/
theorem C27_best_candidates (Q : PriorityQueue (Candidate K) Candidate.lt) (cost : ℕ → ℕ → K)
    (rows cols n : ℕ) (hn : 0 < n) :
    ∃ best, getBestCandidates Q cost rows cols n = some best ∧
      IsBest n (allCandidates cost rows cols) best := by
  have hall : (cellList (List.range rows) cols).map (cellCandidate cost) =
      allCandidates cost rows cols := by
    unfold cellList allCandidates cellCandidate ALPHA_RES
    rw [List.map_flatMap]
    simp [List.map_map, Function.comp_def]
  obtain ⟨q, h1, h2, rest, h3, h4⟩ := scan_inv (Q := Q) hn
    ((cellList (List.range rows) cols).map (cellCandidate cost)) Q.empty 0
    ⟨by simp [Q.bag_empty], 0, by simp [Q.bag_empty], by simp⟩
  obtain ⟨d1, d2⟩ := drain_spec (Q := Q) (Q.bag q).card q rfl
  rw [hall] at h1 h2 h3
  simp only [zero_add] at h2 h3
  refine ⟨(drain Q (Q.bag q).card q).reverse, ?_, ?_, ?_, rest.toList, ?_, ?_⟩
  · unfold getBestCandidates; rw [hall, h1]; rfl
  · rw [List.length_reverse, ← Multiset.coe_card, d1, h2]; rfl
  · rw [List.pairwise_reverse]; exact d2
  · rw [← Multiset.coe_eq_coe, ← Multiset.coe_add, Multiset.coe_reverse, d1, Multiset.coe_toList, h3]
  · intro x hx y hy
    apply h4 x _ y (Multiset.mem_toList.1 hy)
    rw [← d1]; simpa using hx

/-- Consequences a caller uses: the first candidate is a globally cheapest cell, and the list is
empty only for an empty matrix. -/
theorem C27_head_is_cheapest (Q : PriorityQueue (Candidate K) Candidate.lt) (cost : ℕ → ℕ → K)
    (rows cols n : ℕ) (hn : 0 < n) (hr : 0 < rows) (hc : 0 < cols) :
    ∃ b tl, getBestCandidates Q cost rows cols n = some (b :: tl) ∧
      b ∈ allCandidates cost rows cols ∧ ∀ e < rows, ∀ z < cols, b.cost ≤ cost e z := by
  obtain ⟨best, h1, h2, h3, rest, h4, h5⟩ := C27_best_candidates Q cost rows cols n hn
  have mem : ∀ e < rows, ∀ z < cols, ∃ c ∈ allCandidates cost rows cols, c.cost = cost e z := by
    intro e he z hz
    exact ⟨_, List.mem_flatMap.2 ⟨e, List.mem_range.2 he,
      List.mem_map.2 ⟨z, List.mem_range.2 hz, rfl⟩⟩, rfl⟩
  cases best with
  | nil =>
    exfalso
    obtain ⟨c, hc', -⟩ := mem 0 hr 0 hc
    have := List.length_pos_of_mem hc'
    simp at h2; omega
  | cons b tl =>
    refine ⟨b, tl, h1, h4.mem_iff.1 (by simp), ?_⟩
    intro e he z hz
    obtain ⟨c, c1, c2⟩ := mem e he z hz
    rw [← c2]
    have := h4.mem_iff.2 c1
    rcases List.mem_append.1 this with h | h
    · rcases List.mem_cons.1 h with rfl | h
      · exact le_rfl
      · exact (List.pairwise_cons.1 h3).1 c h
    · exact h5 b (by simp) c h

/-- Asking for zero candidates reads `top()` of an empty queue. -/
theorem C27_zero_candidates_is_ub (Q : PriorityQueue (Candidate K) Candidate.lt) (cost : ℕ → ℕ → K)
    (rows cols : ℕ) (hr : 0 < rows) (hc : 0 < cols) :
    getBestCandidates Q cost rows cols 0 = none := by
  unfold getBestCandidates cellList
  obtain ⟨r, rfl⟩ := Nat.exists_eq_add_of_lt hr
  obtain ⟨c, rfl⟩ := Nat.exists_eq_add_of_lt hc
  rw [show 0 + r + 1 = r + 1 by omega, show 0 + c + 1 = c + 1 by omega, List.range_succ_eq_map,
    List.range_succ_eq_map]
  simp [loopM, offer, Q.top_none _ Q.bag_empty]

end

/-! ## A conforming queue exists (non-vacuity): a list kept sorted by decreasing cost. -/

/-- Insert before the first element that is not more expensive. -/
def insertDesc {K : Type*} [LinearOrder K] (c : Candidate K) : List (Candidate K) → List (Candidate K)
  | [] => [c]
  | x :: l => if x.cost ≤ c.cost then c :: x :: l else x :: insertDesc c l

theorem insertDesc_perm {K : Type*} [LinearOrder K] (c : Candidate K) (l : List (Candidate K)) :
    (insertDesc c l).Perm (c :: l) := by
  induction l with
  | nil => simp [insertDesc]
  | cons x l ih =>
    unfold insertDesc
    split_ifs
    · exact List.Perm.refl _
    · exact (ih.cons x).trans (List.Perm.swap c x l)

theorem insertDesc_sorted {K : Type*} [LinearOrder K] (c : Candidate K) (l : List (Candidate K))
    (h : l.Pairwise (fun a b => b.cost ≤ a.cost)) :
    (insertDesc c l).Pairwise (fun a b => b.cost ≤ a.cost) := by
  induction l with
  | nil => simp [insertDesc]
  | cons x l ih =>
    obtain ⟨h1, h2⟩ := List.pairwise_cons.1 h
    unfold insertDesc
    split_ifs with hx
    · refine List.pairwise_cons.2 ⟨?_, h⟩
      intro a ha
      rcases List.mem_cons.1 ha with rfl | ha
      · exact hx
      · exact (h1 a ha).trans hx
    · refine List.pairwise_cons.2 ⟨?_, ih h2⟩
      intro a ha
      rcases List.mem_cons.1 ((insertDesc_perm c l).mem_iff.1 ha) with rfl | ha
      · exact (not_le.1 hx).le
      · exact h1 a ha

/-- Sorted-list priority queue. -/
def sortedQueueOf (K : Type) [LinearOrder K] : PriorityQueue (Candidate K) Candidate.lt where
  State := { l : List (Candidate K) // l.Pairwise (fun a b => b.cost ≤ a.cost) }
  empty := ⟨[], List.Pairwise.nil⟩
  push s a := ⟨insertDesc a s.1, insertDesc_sorted a s.1 s.2⟩
  pop s := ⟨s.1.tail, s.2.tail⟩
  top s := s.1.head?
  bag s := s.1
  bag_empty := rfl
  bag_push s a := by simpa using (Multiset.coe_eq_coe.2 (insertDesc_perm a s.1))
  top_none s h := by
    have : s.1 = [] := by simpa using h
    simp [this]
  top_some s h := by
    obtain ⟨l, hl⟩ := s
    cases l with
    | nil => exact absurd rfl h
    | cons m l =>
      refine ⟨m, rfl, by simp, ?_, by simp⟩
      intro x hx
      rcases (by simpa using hx : x = m ∨ x ∈ l) with rfl | hx
      · exact lt_irrefl x.cost
      · exact not_lt.2 ((List.pairwise_cons.1 hl).1 x hx)

/-- The same over the rationals. -/
abbrev sortedQueue : PriorityQueue (Candidate ℚ) Candidate.lt := sortedQueueOf ℚ

example : (getBestCandidates sortedQueue (fun e z => if e = 1 ∧ z = 1 then -5 else (e + z : ℚ)) 2 2 2).map
    (fun l => l.map (fun c => (c.cost, c.elevation, c.azimuth))) =
    some [(-5, -81, -171), (0, -87, -177)] := by decide +kernel

end Avoidance
