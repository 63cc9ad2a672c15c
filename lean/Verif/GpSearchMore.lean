import Verif.GpSearchProps

/-!
# Completeness and quality of the path search (C72, C73)
-/

namespace Avoidance
namespace Global

set_option linter.unusedSectionVars false

variable {ν κ K : Type*} [DecidableEq κ] [Field K] [LinearOrder K] [IsStrictOrderedRing K]

/-! ## Specification -/

/-- Equal nodes offer the same moves at the same cost and are goals together. -/
structure KeyCong (P : Problem ν κ K) : Prop where
  step : ∀ a a' b c, P.key a = P.key a' → StepTo P a b c → StepTo P a' b c
  goal : ∀ a a', P.key a = P.key a' → P.goal a = P.goal a'

/-- The top of the queue is an entry with the smallest priority. -/
def PicksMin (P : Problem ν κ K) : Prop := ∀ l e rest, popTop P l = some (e, rest) → ∀ x ∈ l, e.2 ≤ x.2

/-- The heuristic is a fixed non-negative function of the node, zero at goals, that overestimates no move by more than the
factor `ε`. -/
structure Consistent (P : Problem ν κ K) (h : κ → K) (ε : K) : Prop where
  fixed : ∀ hist v, P.heur hist v = h (P.key v)
  nonneg : ∀ k, 0 ≤ h k
  goal : ∀ v, P.goal v = true → h (P.key v) = 0
  step : ∀ a b c, StepTo P a b c → h (P.key a) ≤ ε * c + h (P.key b)

/-! ## Reachability -/

/-- The node `a` can be reached from `s` by legal moves of total cost `t`. -/
inductive Reach (P : Problem ν κ K) (s : ν) : ν → K → Prop
  | start : Reach P s s 0
  | step {a b : ν} {t c : K} : Reach P s a t → StepTo P a b c → Reach P s b (t + c)

theorem PathCost.reach_aux {P : Problem ν κ K} {l : List ν} {t : K} (h : PathCost P l t) :
    ∀ {s a g : ν} {t0 : K}, l.head? = some a → l.getLast? = some g → Reach P s a t0 → Reach P s g (t0 + t) := by
  induction h with
  | single a0 =>
      intro s a g t0 h1 h2 h3
      rw [List.head?_cons, Option.some_inj] at h1
      rw [List.getLast?_singleton, Option.some_inj] at h2
      subst h1; subst h2
      rw [add_zero]; exact h3
  | @cons a0 b0 l c t hs hp ih =>
      intro s a g t0 h1 h2 h3
      rw [List.head?_cons, Option.some_inj] at h1
      subst h1
      rw [List.getLast?_cons_cons] at h2
      have := ih (by rw [List.head?_cons]) h2 (Reach.step h3 hs)
      rw [add_assoc] at this
      exact this

theorem PathCost.reach {P : Problem ν κ K} {l : List ν} {t : K} (h : PathCost P l t) {s g : ν} (h1 : l.head? = some s)
    (h2 : l.getLast? = some g) : Reach P s g t := by
  have := h.reach_aux h1 h2 Reach.start
  rwa [zero_add] at this

theorem Reach.nonneg {P : Problem ν κ K} (hP : NonnegCost P) {s a : ν} {t : K} (h : Reach P s a t) : 0 ≤ t := by
  induction h with
  | start => exact le_refl _
  | step _ hs ih =>
      obtain ⟨v, _, _, _, h4⟩ := hs
      have := hP _ _ _ h4
      linarith

/-! ## What relaxing does to the distances -/

/-- `st'` knows everything `st` knows, with distances that are not larger, and has the same closed nodes. -/
def Improves (st st' : SearchSt ν κ K) : Prop :=
  (∀ k d, st.dist k = some d → ∃ d', st'.dist k = some d' ∧ d' ≤ d) ∧ (∀ e ∈ st.pq, e ∈ st'.pq) ∧ st'.seen = st.seen

theorem Improves.refl (st : SearchSt ν κ K) : Improves st st := ⟨fun k d h => ⟨d, h, le_refl _⟩, fun _ h => h, rfl⟩

theorem Improves.trans {a b c : SearchSt ν κ K} (h1 : Improves a b) (h2 : Improves b c) : Improves a c := by
  refine ⟨fun k d h => ?_, fun e he => h2.2.1 e (h1.2.1 e he), h2.2.2.trans h1.2.2⟩
  obtain ⟨d1, e1, l1⟩ := h1.1 k d h
  obtain ⟨d2, e2, l2⟩ := h2.1 k d1 e1
  exact ⟨d2, e2, le_trans l2 l1⟩

theorem relax_improves (P : Problem ν κ K) (u : Ref ν) (st : SearchSt ν κ K) (v : ν) : Improves st (relax P u st v) := by
  unfold relax
  by_cases hl : P.legal v = true
  swap
  · rw [if_neg hl]; exact Improves.refl st
  rw [if_pos hl]
  cases hc : P.cost u.1 v with
  | none => exact Improves.refl st
  | some c =>
    dsimp only
    by_cases hb : better ((st.dist (P.key u.1)).getD 0 + c) (st.dist (P.key v))
    swap
    · rw [if_neg hb]; exact Improves.refl st
    rw [if_pos hb]
    refine ⟨fun k d h => ?_, fun e he => List.mem_cons_of_mem _ he, rfl⟩
    unfold relaxUpdate
    dsimp only
    by_cases hk : k = P.key v
    · rw [if_pos hk]
      rw [← hk, h] at hb
      exact ⟨_, rfl, le_of_lt hb⟩
    · rw [if_neg hk]; exact ⟨d, h, le_refl _⟩

theorem fold_improves (P : Problem ν κ K) (u : Ref ν) (l : List ν) (st : SearchSt ν κ K) :
    Improves st (l.foldl (relax P u) st) := by
  induction l generalizing st with
  | nil => exact Improves.refl st
  | cons v l ih => exact (relax_improves P u st v).trans (ih _)

/-- After relaxing, the neighbour's distance is at most the distance through `u`. -/
theorem relax_reaches (P : Problem ν κ K) (u : Ref ν) (st : SearchSt ν κ K) (v : ν) {du c : K} (hu : st.dist (P.key u.1) = some du)
    (hl : P.legal v = true) (hc : P.cost u.1 v = some c) : ∃ d, (relax P u st v).dist (P.key v) = some d ∧ d ≤ du + c := by
  unfold relax
  rw [if_pos hl, hc]
  dsimp only
  rw [hu, Option.getD_some]
  by_cases hb : better (du + c) (st.dist (P.key v))
  · rw [if_pos hb]
    unfold relaxUpdate
    dsimp only
    rw [if_pos rfl]
    exact ⟨_, rfl, le_refl _⟩
  · rw [if_neg hb]
    cases hd : st.dist (P.key v) with
    | none => rw [hd] at hb; exact absurd trivial hb
    | some d => rw [hd] at hb; exact ⟨d, rfl, not_lt.mp hb⟩

theorem fold_reaches (P : Problem ν κ K) (u : Ref ν) (l : List ν) (st : SearchSt ν κ K) {du : K} (hu : st.dist (P.key u.1) = some du)
    {v : ν} (hv : v ∈ l) {c : K} (hl : P.legal v = true) (hc : P.cost u.1 v = some c) :
    ∃ d, (l.foldl (relax P u) st).dist (P.key v) = some d ∧ d ≤ du + c := by
  induction l generalizing st du with
  | nil => exact absurd hv (List.not_mem_nil)
  | cons w l ih =>
      rw [List.foldl_cons]
      obtain ⟨du', h1, h2⟩ := (relax_improves P u st w).1 _ _ hu
      rcases List.mem_cons.mp hv with rfl | hv
      · obtain ⟨d, h3, h4⟩ := relax_reaches P u st v hu hl hc
        obtain ⟨d', h5, h6⟩ := (fold_improves P u l (relax P u st v)).1 _ _ h3
        exact ⟨d', h5, le_trans h6 h4⟩
      · obtain ⟨d, h3, h4⟩ := ih (relax P u st w) h1 hv
        exact ⟨d, h3, by linarith⟩

/-! ## Completeness -/

/-- Every known node that is not closed is in the queue. -/
def OpenQueued (P : Problem ν κ K) (st : SearchSt ν κ K) : Prop :=
  ∀ k d, st.dist k = some d → k ∉ st.seen → ∃ e ∈ st.pq, P.key e.1.1 = k

/-- Closed nodes are no goals and all nodes that can be reached from them in one move are known. -/
def ClosedDone (P : Problem ν κ K) (st : SearchSt ν κ K) : Prop :=
  ∀ k ∈ st.seen, ∀ a, P.key a = k → P.goal a = false ∧ ∀ b c, StepTo P a b c → ∃ d, st.dist (P.key b) = some d

theorem relax_open {P : Problem ν κ K} (u : Ref ν) {st : SearchSt ν κ K} (v : ν) (h : OpenQueued P st) : OpenQueued P (relax P u st v) := by
  unfold relax
  by_cases hl : P.legal v = true
  swap
  · rw [if_neg hl]; exact h
  rw [if_pos hl]
  cases hc : P.cost u.1 v with
  | none => exact h
  | some c =>
    dsimp only
    by_cases hb : better ((st.dist (P.key u.1)).getD 0 + c) (st.dist (P.key v))
    swap
    · rw [if_neg hb]; exact h
    rw [if_pos hb]
    intro k d hd hs
    unfold relaxUpdate at hd hs ⊢
    dsimp only at hd hs ⊢
    by_cases hk : k = P.key v
    · exact ⟨_, List.mem_cons_self .., hk.symm⟩
    · rw [if_neg hk] at hd
      obtain ⟨e, he, hek⟩ := h k d hd hs
      exact ⟨e, List.mem_cons_of_mem _ he, hek⟩

theorem fold_open {P : Problem ν κ K} (u : Ref ν) (l : List ν) {st : SearchSt ν κ K} (h : OpenQueued P st) :
    OpenQueued P (l.foldl (relax P u) st) := by
  induction l generalizing st with
  | nil => exact h
  | cons v l ih => exact ih (relax_open u v h)

/-- An entry other than the popped one stays in the queue. -/
theorem popTop_keeps {P : Problem ν κ K} {l : List (Ref ν × K)} {e : Ref ν × K} {rest : List (Ref ν × K)}
    (h : popTop P l = some (e, rest)) {x : Ref ν × K} (hx : x ∈ l) (hne : x ≠ e) : x ∈ rest := by
  unfold popTop at h
  rw [Option.map_eq_some_iff] at h
  obtain ⟨e', h1, h2⟩ := h
  rw [Prod.mk.injEq] at h2
  obtain ⟨rfl, rfl⟩ := h2
  rw [List.mem_eraseIdx_iff_getElem?]
  obtain ⟨i, hi⟩ := List.getElem?_of_mem hx
  refine ⟨i, ?_, hi⟩
  rintro rfl
  rw [h1, Option.some_inj] at hi
  exact hne hi.symm

structure CompInv (P : Problem ν κ K) (s : ν) (st : SearchSt ν κ K) : Prop where
  base : SearchInv P s st
  queued : OpenQueued P st
  closed : ClosedDone P st

theorem CompInv.init (P : Problem ν κ K) (s : ν) : CompInv P s (SearchSt.init P s) := by
  refine ⟨SearchInv.init P s, ?_, ?_⟩
  · intro k d h _
    unfold SearchSt.init at h ⊢
    dsimp only at h ⊢
    split at h
    · rename_i hk
      exact ⟨_, List.mem_singleton.mpr rfl, hk.symm⟩
    · exact absurd h (by simp)
  · intro k hk
    exact absurd hk (List.not_mem_nil)

theorem iterateOnce_comp {P : Problem ν κ K} (hP : NonnegCost P) (hC : KeyCong P) {s : ν} (max : ℕ) {st : SearchSt ν κ K}
    (hI : CompInv P s st) {st' : SearchSt ν κ K} (h : iterateOnce P max st = .running st') : CompInv P s st' := by
  have hbase := iterateOnce_inv hP max hI.base
  rw [h] at hbase
  refine ⟨hbase, ?_, ?_⟩ <;>
  · unfold iterateOnce at h
    by_cases hm : st.iter < max
    swap
    · rw [if_neg hm] at h; exact absurd h (by simp)
    rw [if_pos hm] at h
    cases hp : popTop P st.pq with
    | none => rw [hp] at h; exact absurd h (by simp)
    | some er =>
      obtain ⟨e, rest⟩ := er
      rw [hp] at h
      dsimp only at h
      have hopen : ∀ k d, st.dist k = some d → k ∉ st.seen → k ≠ P.key e.1.1 → ∃ x ∈ rest, P.key x.1.1 = k := by
        intro k d hd hs hne
        obtain ⟨x, hx, hxk⟩ := hI.queued k d hd hs
        exact ⟨x, popTop_keeps hp hx (by rintro rfl; exact hne hxk.symm), hxk⟩
      by_cases hs : P.key e.1.1 ∈ st.seen
      · rw [if_pos hs] at h
        injection h with h
        subst h
        first
          | exact fun k d hd hks => hopen k d hd hks (by rintro rfl; exact hks hs)
          | exact hI.closed
      · rw [if_neg hs] at h
        by_cases hg : P.goal e.1.1 = true
        · rw [if_pos hg] at h; exact absurd h (by simp)
        · rw [if_neg hg] at h
          injection h with h
          subst h
          obtain ⟨du, hdu⟩ := (hI.base.queue e (popTop_mem hp).1).2
          first
            | exact fold_open e.1 _ (fun k d hd hks => by
                dsimp only at hd hks ⊢
                rw [List.mem_cons, not_or] at hks
                exact hopen k d hd hks.2 hks.1)
            | intro k hk a ha
              rw [(expand_frame P e.1 _).2] at hk
              dsimp only at hk
              rcases List.mem_cons.mp hk with hk | hk
              · refine ⟨?_, fun b c hbc => ?_⟩
                · rw [hC.goal a e.1.1 (ha.trans hk)]
                  exact Bool.eq_false_iff.mpr hg
                · obtain ⟨v, h1, h2, h3, h4⟩ := hC.step a e.1.1 b c (ha.trans hk) hbc
                  rw [← h3]
                  obtain ⟨d, h5, _⟩ := fold_reaches P e.1 (P.nbrs e.1.1)
                    { st with pq := rest, seen := P.key e.1.1 :: st.seen, iter := st.iter + 1 } hdu h1 h2 h4
                  exact ⟨d, h5⟩
              · refine ⟨(hI.closed k hk a ha).1, fun b c hbc => ?_⟩
                obtain ⟨d, hd⟩ := (hI.closed k hk a ha).2 b c hbc
                obtain ⟨d', h1, _⟩ := (fold_improves P e.1 (P.nbrs e.1.1)
                    { st with pq := rest, seen := P.key e.1.1 :: st.seen, iter := st.iter + 1 }).1 _ d hd
                exact ⟨d', h1⟩

theorem runLoop_stopped {P : Problem ν κ K} (hP : NonnegCost P) (hC : KeyCong P) {s : ν} (max n : ℕ) {st : SearchSt ν κ K}
    (hI : CompInv P s st) {st' : SearchSt ν κ K} (h : runLoop P max n st = some (none, st')) :
    CompInv P s st' ∧ (max ≤ st'.iter ∨ st'.pq = []) := by
  induction n generalizing st with
  | zero => exact absurd h (by simp [runLoop])
  | succ n ih =>
      unfold runLoop at h
      cases hit : iterateOnce P max st with
      | running st1 => rw [hit] at h; exact ih (iterateOnce_comp hP hC max hI hit) h
      | found r st1 => rw [hit] at h; exact absurd h (by simp)
      | stopped st1 =>
          rw [hit] at h
          dsimp only at h
          rw [Option.some_inj, Prod.mk.injEq] at h
          obtain ⟨_, rfl⟩ := h
          unfold iterateOnce at hit
          by_cases hm : st.iter < max
          · rw [if_pos hm] at hit
            cases hp : popTop P st.pq with
            | none =>
                rw [hp] at hit
                injection hit with hit
                subst hit
                exact ⟨hI, Or.inr (popTop_none hp)⟩
            | some er =>
                rw [hp] at hit
                dsimp only at hit
                split at hit
                · exact absurd hit (by simp)
                · split at hit <;> exact absurd hit (by simp)
          · rw [if_neg hm] at hit
            injection hit with hit
            subst hit
            exact ⟨hI, Or.inl (not_lt.mp hm)⟩

/-- **C72**: the search misses nothing. If it fails without having used up the iterations it was given, then no sequence of
legal moves leads from the start to a goal, whatever the heuristic and the order of the queue. -/
theorem C72_search_complete (P : Problem ν κ K) (hP : NonnegCost P) (hC : KeyCong P) (s : ν) (max n : ℕ) {it : ℕ}
    (h : findSmoothPath P s max n = some (none, it)) (hit : it < max) :
    ¬ ∃ l t g, PathCost P l t ∧ l.head? = some s ∧ l.getLast? = some g ∧ P.goal g = true := by
  unfold findSmoothPath at h
  cases hr : runLoop P max n (SearchSt.init P s) with
  | none => rw [hr] at h; exact absurd h (by simp)
  | some q =>
      obtain ⟨o', st⟩ := q
      rw [hr] at h
      cases o' with
      | some r =>
          dsimp only at h
          rw [Option.map_eq_some_iff] at h
          obtain ⟨_, _, h2⟩ := h
          exact absurd h2 (by simp)
      | none =>
          dsimp only at h
          rw [Option.some_inj, Prod.mk.injEq] at h
          obtain ⟨hI, hend⟩ := runLoop_stopped hP hC max n (CompInv.init P s) hr
          have hnil : st.pq = [] := by
            rcases hend with h' | h'
            · exfalso; have := h.2; omega
            · exact h'
          have hclosed : ∀ k d, st.dist k = some d → k ∈ st.seen := by
            intro k d hd
            by_contra hns
            obtain ⟨e, he, _⟩ := hI.queued k d hd hns
            rw [hnil] at he
            exact absurd he (List.not_mem_nil)
          have hreach : ∀ a t, Reach P s a t → ∃ d, st.dist (P.key a) = some d := by
            intro a t hat
            induction hat with
            | start => exact ⟨0, hI.base.start⟩
            | step _ hs ih =>
                obtain ⟨d, hd⟩ := ih
                exact (hI.closed _ (hclosed _ _ hd) _ rfl).2 _ _ hs
          rintro ⟨l, t, g, h1, h2, h3, h4⟩
          obtain ⟨d, hd⟩ := hreach g t (h1.reach h2 h3)
          have := (hI.closed _ (hclosed _ _ hd) g rfl).1
          rw [this] at h4
          exact absurd h4 (by simp)

/-! ## Quality -/

structure SubInv (P : Problem ν κ K) (h : κ → K) (ε : K) (s : ν) (st : SearchSt ν κ K) : Prop where
  comp : CompInv P s st
  near : ∀ a t, Reach P s a t → P.key a ∈ st.seen → ∃ d, st.dist (P.key a) = some d ∧ d ≤ ε * t
  next : ∀ a t b c, Reach P s a t → P.key a ∈ st.seen → StepTo P a b c → ∃ d, st.dist (P.key b) = some d ∧ d ≤ ε * t + c
  prio : ∀ k d, st.dist k = some d → k ∉ st.seen → ∃ e ∈ st.pq, P.key e.1.1 = k ∧ e.2 ≤ d + h k
  bound : ∀ e ∈ st.pq, P.key e.1.1 = P.key s ∨ ∃ d, st.dist (P.key e.1.1) = some d ∧ d + h (P.key e.1.1) ≤ e.2

theorem SubInv.init (P : Problem ν κ K) {h : κ → K} {ε : K} (hh : Consistent P h ε) (s : ν) : SubInv P h ε s (SearchSt.init P s) := by
  refine ⟨CompInv.init P s, ?_, ?_, ?_, ?_⟩
  · intro a t _ hs; exact absurd hs (List.not_mem_nil)
  · intro a t b c _ hs; exact absurd hs (List.not_mem_nil)
  · intro k d hd _
    unfold SearchSt.init at hd ⊢
    dsimp only at hd ⊢
    split at hd
    · rename_i hk
      refine ⟨_, List.mem_singleton.mpr rfl, hk.symm, ?_⟩
      rw [← Option.some_inj.mp hd]
      have := hh.nonneg k
      dsimp only
      linarith
    · exact absurd hd (by simp)
  · intro e he
    unfold SearchSt.init at he
    dsimp only at he
    rw [List.mem_singleton] at he
    subst he
    exact Or.inl rfl

/-- Some open node on the way bounds the priority. -/
theorem SubInv.frontier {P : Problem ν κ K} (hP : NonnegCost P) {h : κ → K} {ε : K} (hε : 1 ≤ ε) (hh : Consistent P h ε) {s : ν}
    {st : SearchSt ν κ K} (hI : SubInv P h ε s st) {a : ν} {t : K} (hr : Reach P s a t) :
    P.key a ∉ st.seen → ∃ e ∈ st.pq, e.2 ≤ ε * t + h (P.key a) := by
  suffices hs : P.key a ∉ st.seen → ∃ k d, st.dist k = some d ∧ k ∉ st.seen ∧ d + h k ≤ ε * t + h (P.key a) by
    intro hn
    obtain ⟨k, d, h1, h2, h3⟩ := hs hn
    obtain ⟨e, he, _, hle⟩ := hI.prio k d h1 h2
    exact ⟨e, he, le_trans hle h3⟩
  induction hr with
  | start => intro hn; exact ⟨P.key s, 0, hI.comp.base.start, hn, by rw [mul_zero]⟩
  | @step a b t c hra hst ih =>
      intro hn
      have hc : 0 ≤ c := by obtain ⟨v, _, _, _, h4⟩ := hst; exact hP _ _ _ h4
      by_cases ha : P.key a ∈ st.seen
      · obtain ⟨d, h1, h2⟩ := hI.next a t b c hra ha hst
        refine ⟨P.key b, d, h1, hn, ?_⟩
        have : c ≤ ε * c := by nlinarith
        rw [mul_add]; linarith
      · obtain ⟨k, d, h1, h2, h3⟩ := ih ha
        have := hh.step a b c hst
        exact ⟨k, d, h1, h2, by rw [mul_add]; linarith⟩

theorem relax_prio {P : Problem ν κ K} {h : κ → K} {ε : K} (hh : Consistent P h ε) (s : ν) (u : Ref ν) {st : SearchSt ν κ K} (v : ν)
    (h1 : ∀ k d, st.dist k = some d → k ∉ st.seen → ∃ e ∈ st.pq, P.key e.1.1 = k ∧ e.2 ≤ d + h k)
    (h2 : ∀ e ∈ st.pq, P.key e.1.1 = P.key s ∨ ∃ d, st.dist (P.key e.1.1) = some d ∧ d + h (P.key e.1.1) ≤ e.2) :
    (∀ k d, (relax P u st v).dist k = some d → k ∉ (relax P u st v).seen → ∃ e ∈ (relax P u st v).pq, P.key e.1.1 = k ∧ e.2 ≤ d + h k) ∧
    (∀ e ∈ (relax P u st v).pq, P.key e.1.1 = P.key s ∨
      ∃ d, (relax P u st v).dist (P.key e.1.1) = some d ∧ d + h (P.key e.1.1) ≤ e.2) := by
  unfold relax
  by_cases hl : P.legal v = true
  swap
  · rw [if_neg hl]; exact ⟨h1, h2⟩
  rw [if_pos hl]
  cases hc : P.cost u.1 v with
  | none => exact ⟨h1, h2⟩
  | some c =>
    dsimp only
    generalize hnd : (st.dist (P.key u.1)).getD 0 + c = nd
    by_cases hb : better nd (st.dist (P.key v))
    swap
    · rw [if_neg hb]; exact ⟨h1, h2⟩
    rw [if_pos hb]
    unfold relaxUpdate
    dsimp only
    rw [hh.fixed]
    constructor
    · intro k d hd hs
      by_cases hk : k = P.key v
      · rw [if_pos hk, Option.some_inj] at hd
        refine ⟨_, List.mem_cons_self .., hk.symm, ?_⟩
        rw [hd, hk]
      · rw [if_neg hk] at hd
        obtain ⟨e, he, h3, h4⟩ := h1 k d hd hs
        exact ⟨e, List.mem_cons_of_mem _ he, h3, h4⟩
    · intro e he
      rcases List.mem_cons.mp he with rfl | he
      · exact Or.inr ⟨nd, by dsimp only; rw [if_pos rfl], le_refl _⟩
      · rcases h2 e he with h3 | ⟨d, h3, h4⟩
        · exact Or.inl h3
        · right
          by_cases hk : P.key e.1.1 = P.key v
          · rw [if_pos hk]
            refine ⟨nd, rfl, ?_⟩
            rw [← hk, h3] at hb
            unfold better at hb
            linarith
          · rw [if_neg hk]; exact ⟨d, h3, h4⟩

theorem fold_prio {P : Problem ν κ K} {h : κ → K} {ε : K} (hh : Consistent P h ε) (s : ν) (u : Ref ν) (l : List ν) {st : SearchSt ν κ K}
    (h1 : ∀ k d, st.dist k = some d → k ∉ st.seen → ∃ e ∈ st.pq, P.key e.1.1 = k ∧ e.2 ≤ d + h k)
    (h2 : ∀ e ∈ st.pq, P.key e.1.1 = P.key s ∨ ∃ d, st.dist (P.key e.1.1) = some d ∧ d + h (P.key e.1.1) ≤ e.2) :
    (∀ k d, (l.foldl (relax P u) st).dist k = some d → k ∉ (l.foldl (relax P u) st).seen →
      ∃ e ∈ (l.foldl (relax P u) st).pq, P.key e.1.1 = k ∧ e.2 ≤ d + h k) ∧
    (∀ e ∈ (l.foldl (relax P u) st).pq, P.key e.1.1 = P.key s ∨
      ∃ d, (l.foldl (relax P u) st).dist (P.key e.1.1) = some d ∧ d + h (P.key e.1.1) ≤ e.2) := by
  induction l generalizing st with
  | nil => exact ⟨h1, h2⟩
  | cons v l ih =>
      obtain ⟨h3, h4⟩ := relax_prio hh s u v h1 h2
      exact ih h3 h4

/-- The node on top of the queue, if it is not closed yet, is within the factor of the best way to it. -/
theorem SubInv.top {P : Problem ν κ K} (hP : NonnegCost P) (hM : PicksMin P) {h : κ → K} {ε : K} (hε : 1 ≤ ε)
    (hh : Consistent P h ε) {s : ν} {st : SearchSt ν κ K} (hI : SubInv P h ε s st) {e : Ref ν × K} {rest : List (Ref ν × K)}
    (hp : popTop P st.pq = some (e, rest)) :
    ∃ d, st.dist (P.key e.1.1) = some d ∧
      ∀ a t, Reach P s a t → P.key a ∉ st.seen → d ≤ ε * t + h (P.key a) ∧ (P.key a = P.key e.1.1 → d ≤ ε * t) := by
  have he := (popTop_mem hp).1
  rcases hI.bound e he with hs | ⟨d, hd, hle⟩
  · refine ⟨0, by rw [hs]; exact hI.comp.base.start, fun a t hr _ => ?_⟩
    have ht := hr.nonneg hP
    have : 0 ≤ ε * t := mul_nonneg (by linarith) ht
    have := hh.nonneg (P.key a)
    exact ⟨by linarith, fun _ => by linarith⟩
  · refine ⟨d, hd, fun a t hr hn => ?_⟩
    obtain ⟨x, hx, hxle⟩ := hI.frontier hP hε hh hr hn
    have h1 := hM _ _ _ hp x hx
    have h2 := hh.nonneg (P.key e.1.1)
    refine ⟨by linarith, fun hk => ?_⟩
    rw [hk] at hxle
    linarith

theorem iterateOnce_sub {P : Problem ν κ K} (hP : NonnegCost P) (hC : KeyCong P) (hM : PicksMin P) {h : κ → K} {ε : K} (hε : 1 ≤ ε)
    (hh : Consistent P h ε) {s : ν} (max : ℕ) {st : SearchSt ν κ K} (hI : SubInv P h ε s st) {st' : SearchSt ν κ K}
    (hit : iterateOnce P max st = .running st') : SubInv P h ε s st' := by
  have hcomp := iterateOnce_comp hP hC max hI.comp hit
  unfold iterateOnce at hit
  by_cases hm : st.iter < max
  swap
  · rw [if_neg hm] at hit; exact absurd hit (by simp)
  rw [if_pos hm] at hit
  cases hp : popTop P st.pq with
  | none => rw [hp] at hit; exact absurd hit (by simp)
  | some er =>
    obtain ⟨e, rest⟩ := er
    rw [hp] at hit
    dsimp only at hit
    have hkeep : ∀ k d, st.dist k = some d → k ∉ st.seen → k ≠ P.key e.1.1 → ∃ x ∈ rest, P.key x.1.1 = k ∧ x.2 ≤ d + h k := by
      intro k d hd hs hne
      obtain ⟨x, hx, hxk, hxp⟩ := hI.prio k d hd hs
      exact ⟨x, popTop_keeps hp hx (by rintro rfl; exact hne hxk.symm), hxk, hxp⟩
    have hbound : ∀ x ∈ rest, P.key x.1.1 = P.key s ∨ ∃ d, st.dist (P.key x.1.1) = some d ∧ d + h (P.key x.1.1) ≤ x.2 :=
      fun x hx => hI.bound x ((popTop_mem hp).2.1 x hx)
    by_cases hs : P.key e.1.1 ∈ st.seen
    · rw [if_pos hs] at hit
      injection hit with hit
      subst hit
      exact ⟨hcomp, hI.near, hI.next, fun k d hd hks => hkeep k d hd hks (by rintro rfl; exact hks hs), hbound⟩
    · rw [if_neg hs] at hit
      by_cases hg : P.goal e.1.1 = true
      · rw [if_pos hg] at hit; exact absurd hit (by simp)
      · rw [if_neg hg] at hit
        injection hit with hit
        subst hit
        obtain ⟨du, hdu, htop⟩ := hI.top hP hM hε hh hp
        let st0 : SearchSt ν κ K := { st with pq := rest, seen := P.key e.1.1 :: st.seen, iter := st.iter + 1 }
        have himp : Improves st0 (expand P e.1 st0) := fold_improves P e.1 (P.nbrs e.1.1) st0
        have hprio := fold_prio hh s e.1 (P.nbrs e.1.1) (st := st0)
          (fun k d hd hks => by
            have hks' : k ∉ P.key e.1.1 :: st.seen := hks
            rw [List.mem_cons, not_or] at hks'
            exact hkeep k d hd hks'.2 hks'.1) hbound
        refine ⟨hcomp, ?_, ?_, hprio.1, hprio.2⟩
        · intro a t hr hk
          have hk' : P.key a ∈ P.key e.1.1 :: st.seen := by rw [(expand_frame P e.1 _).2] at hk; exact hk
          by_cases has : P.key a ∈ st.seen
          · obtain ⟨d, h1, h2⟩ := hI.near a t hr has
            obtain ⟨d', h3, h4⟩ := himp.1 _ d h1
            exact ⟨d', h3, le_trans h4 h2⟩
          · have hk2 : P.key a = P.key e.1.1 := (List.mem_cons.mp hk').resolve_right has
            obtain ⟨d', h3, h4⟩ := himp.1 _ du hdu
            rw [hk2]
            exact ⟨d', h3, le_trans h4 ((htop a t hr has).2 hk2)⟩
        · intro a t b c hr hk hst
          have hk' : P.key a ∈ P.key e.1.1 :: st.seen := by rw [(expand_frame P e.1 _).2] at hk; exact hk
          by_cases has : P.key a ∈ st.seen
          · obtain ⟨d, h1, h2⟩ := hI.next a t b c hr has hst
            obtain ⟨d', h3, h4⟩ := himp.1 _ d h1
            exact ⟨d', h3, le_trans h4 h2⟩
          · have hk2 : P.key a = P.key e.1.1 := (List.mem_cons.mp hk').resolve_right has
            obtain ⟨v, g1, g2, g3, g4⟩ := hC.step a e.1.1 b c hk2 hst
            rw [← g3]
            obtain ⟨d, h5, h6⟩ := fold_reaches P e.1 (P.nbrs e.1.1) st0 hdu g1 g2 g4
            have := (htop a t hr has).2 hk2
            exact ⟨d, h5, by linarith⟩

theorem runLoop_sub {P : Problem ν κ K} (hP : NonnegCost P) (hC : KeyCong P) (hM : PicksMin P) {h : κ → K} {ε : K} (hε : 1 ≤ ε)
    (hh : Consistent P h ε) {s : ν} (max n : ℕ) {st : SearchSt ν κ K} (hI : SubInv P h ε s st) {r : Ref ν} {st' : SearchSt ν κ K}
    (hrun : runLoop P max n st = some (some r, st')) :
    ∃ d, st'.dist (P.key r.1) = some d ∧ ∀ g t, Reach P s g t → P.goal g = true → d ≤ ε * t := by
  induction n generalizing st with
  | zero => exact absurd hrun (by simp [runLoop])
  | succ n ih =>
      unfold runLoop at hrun
      cases hit : iterateOnce P max st with
      | running st1 => rw [hit] at hrun; exact ih (iterateOnce_sub hP hC hM hε hh max hI hit) hrun
      | stopped st1 => rw [hit] at hrun; exact absurd hrun (by simp)
      | found r1 st1 =>
          rw [hit] at hrun
          dsimp only at hrun
          rw [Option.some_inj, Prod.mk.injEq, Option.some_inj] at hrun
          obtain ⟨rfl, rfl⟩ := hrun
          unfold iterateOnce at hit
          by_cases hm : st.iter < max
          swap
          · rw [if_neg hm] at hit; exact absurd hit (by simp)
          rw [if_pos hm] at hit
          cases hp : popTop P st.pq with
          | none => rw [hp] at hit; exact absurd hit (by simp)
          | some er =>
            obtain ⟨e, rest⟩ := er
            rw [hp] at hit
            dsimp only at hit
            by_cases hs : P.key e.1.1 ∈ st.seen
            · rw [if_pos hs] at hit; exact absurd hit (by simp)
            · rw [if_neg hs] at hit
              by_cases hg : P.goal e.1.1 = true
              swap
              · rw [if_neg hg] at hit; exact absurd hit (by simp)
              rw [if_pos hg] at hit
              injection hit with h1 h2
              subst h1
              subst h2
              obtain ⟨du, hdu, htop⟩ := hI.top hP hM hε hh hp
              refine ⟨du, hdu, fun g t hr hgg => ?_⟩
              have hns : P.key g ∉ st.seen := by
                intro hk
                have := (hI.comp.closed _ hk g rfl).1
                rw [this] at hgg
                exact absurd hgg (by simp)
              have := (htop g t hr hns).1
              rw [hh.goal g hgg, add_zero] at this
              exact this

/-- **C73**: quality of the path. If the queue returns a cheapest entry and the heuristic overestimates no move by more than
the factor `ε`, then the path found costs at most `ε` times as much as any legal path to a goal (for `ε = 1`: it is optimal),
although nodes are never expanded twice. -/
theorem C73_bounded_suboptimality (P : Problem ν κ K) (hP : NonnegCost P) (hC : KeyCong P) (hM : PicksMin P) (h : κ → K) (ε : K)
    (hε : 1 ≤ ε) (hh : Consistent P h ε) (s : ν) (max n : ℕ) {path : List ν} {it : ℕ}
    (hf : findSmoothPath P s max n = some (some path, it)) :
    ∃ t, PathCost P path t ∧
      ∀ l t' g, PathCost P l t' → l.head? = some s → l.getLast? = some g → P.goal g = true → t ≤ ε * t' := by
  obtain ⟨r, st, d, t, hrun, hd, htd, hpc, _⟩ := found_core P hP s max n hf
  obtain ⟨d', hd', hbest⟩ := runLoop_sub hP hC hM hε hh max n (SubInv.init P hh s) hrun
  rw [hd, Option.some_inj] at hd'
  subst hd'
  exact ⟨t, hpc, fun l t' g h1 h2 h3 h4 => le_trans htd (hbest g t' (h1.reach h2 h3) h4)⟩

end Global
end Avoidance
