import Verif.GpSearch
import Mathlib.Tactic.Ring
import Mathlib.Tactic.Linarith
import Mathlib.Tactic.NormNum

/-!
# The path search of the global planner (C53)
-/

namespace Avoidance
namespace Global

set_option linter.unusedSectionVars false

variable {ν κ K : Type*} [DecidableEq κ] [Field K] [LinearOrder K] [IsStrictOrderedRing K]

/-! ## Specification -/

/-- The planner may move from node `a` to (a node equal to) `b` at cost `c`: one of `a`'s neighbours is equal to `b`, is legal
and has that edge cost. -/
def StepTo (P : Problem ν κ K) (a b : ν) (c : K) : Prop :=
  ∃ v ∈ P.nbrs a, P.legal v = true ∧ P.key v = P.key b ∧ P.cost a v = some c

/-- `PathCost P l t`: `l` is a sequence of nodes, each reached from the one before by a legal move, of total cost `t`. -/
inductive PathCost (P : Problem ν κ K) : List ν → K → Prop
  | single (a : ν) : PathCost P [a] 0
  | cons {a b : ν} {l : List ν} {c t : K} : StepTo P a b c → PathCost P (b :: l) t → PathCost P (a :: b :: l) (c + t)

/-- No edge has a negative cost. -/
def NonnegCost (P : Problem ν κ K) : Prop := ∀ u v c, P.cost u v = some c → 0 ≤ c

/-! ## Paths -/

theorem PathCost.snoc {P : Problem ν κ K} {l : List ν} {t : K} (h : PathCost P l t) :
    ∀ {a b : ν} {c : K}, l.getLast? = some a → StepTo P a b c → PathCost P (l ++ [b]) (t + c) := by
  induction h with
  | single a0 =>
      intro a b c ha hb
      rw [List.getLast?_singleton, Option.some_inj] at ha
      subst ha
      have := PathCost.cons hb (PathCost.single b)
      rw [add_comm c 0] at this
      exact this
  | @cons a0 b0 l c0 t hs hp ih =>
      intro a b c ha hb
      rw [List.getLast?_cons_cons] at ha
      have := PathCost.cons hs (ih ha hb)
      rw [← add_assoc] at this
      exact this

/-! ## Chains of parent pointers -/

/-- `Chain P s par k l`: following the parent pointers from key `k` leads through the references `l` to the start. -/
inductive Chain (P : Problem ν κ K) (s : ν) (par : κ → Option (Ref ν)) : κ → List (Ref ν) → Prop
  | start : Chain P s par (P.key s) []
  | step {k : κ} {p : Ref ν} {l : List (Ref ν)} : k ≠ P.key s → par k = some p → Chain P s par (P.key p.1) l →
      Chain P s par k (p :: l)

/-- A reference is the start pointer, or another pointer to a node that is not equal to the start node. -/
def RefOk (P : Problem ν κ K) (s : ν) (r : Ref ν) : Prop := (r.2 = true ∧ r.1 = s) ∨ (r.2 = false ∧ P.key r.1 ≠ P.key s)

/-- The invariant of the search. -/
structure SearchInv (P : Problem ν κ K) (s : ν) (st : SearchSt ν κ K) : Prop where
  start : st.dist (P.key s) = some 0
  queue : ∀ e ∈ st.pq, RefOk P s e.1 ∧ ∃ d, st.dist (P.key e.1.1) = some d
  nonneg : ∀ k d, st.dist k = some d → 0 ≤ d
  edge : ∀ k d, st.dist k = some d → k ≠ P.key s → ∃ p, st.parent k = some p ∧ RefOk P s p ∧
    ∃ dp v c, st.dist (P.key p.1) = some dp ∧ v ∈ P.nbrs p.1 ∧ P.legal v = true ∧ P.key v = k ∧ P.cost p.1 v = some c ∧ dp + c ≤ d
  chain : ∀ k d, st.dist k = some d → ∃ l, Chain P s st.parent k l

theorem SearchInv.init (P : Problem ν κ K) (s : ν) : SearchInv P s (SearchSt.init P s) := by
  refine ⟨?_, ?_, ?_, ?_, ?_⟩
  · unfold SearchSt.init; dsimp only; rw [if_pos rfl]
  · intro e he
    unfold SearchSt.init at he ⊢
    dsimp only at he ⊢
    rw [List.mem_singleton] at he
    subst he
    exact ⟨Or.inl ⟨rfl, rfl⟩, 0, by rw [if_pos rfl]⟩
  · intro k d h
    unfold SearchSt.init at h
    dsimp only at h
    split at h
    · rw [← Option.some_inj.mp h]
    · exact absurd h (by simp)
  · intro k d h hk
    unfold SearchSt.init at h
    dsimp only at h
    rw [if_neg hk] at h
    exact absurd h (by simp)
  · intro k d h
    unfold SearchSt.init at h
    dsimp only at h
    split at h
    · rename_i hk
      rw [hk]
      exact ⟨[], Chain.start⟩
    · exact absurd h (by simp)

/-- Along a chain the distances do not grow, and all its keys are known. -/
theorem Chain.dist_le {P : Problem ν κ K} (hP : NonnegCost P) {s : ν} {st : SearchSt ν κ K} (hI : SearchInv P s st)
    {k : κ} {l : List (Ref ν)} (h : Chain P s st.parent k l) :
    ∀ {d : K}, st.dist k = some d → ∀ p ∈ l, ∃ dp, st.dist (P.key p.1) = some dp ∧ dp ≤ d := by
  induction h with
  | start => intro d _ p hp; exact absurd hp (List.not_mem_nil)
  | @step k p l hk hpar hch ih =>
      intro d hd q hq
      obtain ⟨p', hp', _, dp, v, c, h1, _, _, _, h5, h6⟩ := hI.edge k d hd hk
      rw [hpar, Option.some_inj] at hp'
      subst hp'
      have hc := hP _ _ _ h5
      rcases List.mem_cons.mp hq with rfl | hq
      · exact ⟨dp, h1, by linarith⟩
      · obtain ⟨dq, hdq, hle⟩ := ih h1 q hq
        exact ⟨dq, hdq, by linarith⟩

/-- A chain that avoids a key does not notice that key's parent pointer being changed. -/
theorem Chain.update_off {P : Problem ν κ K} {s : ν} {par : κ → Option (Ref ν)} {k : κ} {l : List (Ref ν)} (h : Chain P s par k l)
    (kv : κ) (u : Ref ν) (hk : k ≠ kv) (hl : ∀ p ∈ l, P.key p.1 ≠ kv) :
    Chain P s (fun k => if k = kv then some u else par k) k l := by
  induction h with
  | start => exact Chain.start
  | @step k p l hks hpar hch ih =>
      refine Chain.step hks ?_ (ih (hl p (List.mem_cons_self ..)) fun q hq => hl q (List.mem_cons_of_mem _ hq))
      rw [if_neg hk]
      exact hpar

theorem Chain.unique {P : Problem ν κ K} {s : ν} {par : κ → Option (Ref ν)} {k : κ} {l : List (Ref ν)} (h : Chain P s par k l) :
    ∀ {l' : List (Ref ν)}, Chain P s par k l' → l = l' := by
  induction h with
  | start =>
      intro l' h'
      generalize hk : P.key s = k at h'
      cases h' with
      | start => rfl
      | step h1 _ _ => exact absurd hk.symm h1
  | @step k p l hks hpar hch ih =>
      intro l' h'
      cases h' with
      | start => exact absurd rfl hks
      | @step _ p' l' _ hpar' hch' =>
          rw [hpar, Option.some_inj] at hpar'
          subst hpar'
          rw [ih hch']

theorem Chain.suffix {P : Problem ν κ K} {s : ν} {par : κ → Option (Ref ν)} {k : κ} {l : List (Ref ν)} (h : Chain P s par k l) :
    ∀ p ∈ l, ∃ l', Chain P s par (P.key p.1) l' ∧ l'.length < l.length := by
  induction h with
  | start => intro p hp; exact absurd hp (List.not_mem_nil)
  | @step k p l hks hpar hch ih =>
      intro q hq
      rcases List.mem_cons.mp hq with rfl | hq
      · exact ⟨l, hch, by rw [List.length_cons]; omega⟩
      · obtain ⟨l', h1, h2⟩ := ih q hq
        exact ⟨l', h1, by rw [List.length_cons]; omega⟩

/-- The keys along a chain are all different. -/
theorem Chain.nodup {P : Problem ν κ K} {s : ν} {par : κ → Option (Ref ν)} {k : κ} {l : List (Ref ν)} (h : Chain P s par k l) :
    (k :: l.map fun p => P.key p.1).Nodup := by
  induction h with
  | start => simp
  | @step k p l hks hpar hch ih =>
      rw [List.nodup_cons]
      refine ⟨fun hm => ?_, ih⟩
      rw [List.mem_map] at hm
      obtain ⟨q, hq, he⟩ := hm
      have hfull : Chain P s par k (p :: l) := Chain.step hks hpar hch
      obtain ⟨l', h1, h2⟩ := hfull.suffix q hq
      rw [he] at h1
      rw [hfull.unique h1] at h2
      omega

/-- Redirecting a key's parent pointer to a node with a chain leaves every key with a chain. -/
theorem Chain.update_on {P : Problem ν κ K} {s : ν} {par : κ → Option (Ref ν)} {k : κ} {l : List (Ref ν)} (h : Chain P s par k l)
    (kv : κ) (u : Ref ν) (hvs : kv ≠ P.key s) (lu : List (Ref ν))
    (hu : Chain P s (fun k => if k = kv then some u else par k) (P.key u.1) lu) :
    ∃ l', Chain P s (fun k => if k = kv then some u else par k) k l' := by
  induction h with
  | start => exact ⟨[], Chain.start⟩
  | @step k p l hks hpar hch ih =>
      by_cases hk : k = kv
      · subst hk
        exact ⟨u :: lu, Chain.step hks (by rw [if_pos rfl]) hu⟩
      · obtain ⟨l', hl'⟩ := ih
        exact ⟨p :: l', Chain.step hks (by rw [if_neg hk]; exact hpar) hl'⟩

/-! ## The invariant is preserved -/

theorem relax_inv {P : Problem ν κ K} (hP : NonnegCost P) {s : ν} (u : Ref ν) {st : SearchSt ν κ K} (hI : SearchInv P s st)
    (hu : RefOk P s u) (hud : ∃ d, st.dist (P.key u.1) = some d) {v : ν} (hv : v ∈ P.nbrs u.1) :
    SearchInv P s (relax P u st v) ∧ ∃ d, (relax P u st v).dist (P.key u.1) = some d := by
  obtain ⟨du, hdu⟩ := hud
  unfold relax
  by_cases hl : P.legal v = true
  swap
  · rw [if_neg hl]; exact ⟨hI, du, hdu⟩
  rw [if_pos hl]
  cases hc : P.cost u.1 v with
  | none => exact ⟨hI, du, hdu⟩
  | some c =>
    dsimp only
    rw [hdu, Option.getD_some]
    by_cases hb : better (du + c) (st.dist (P.key v))
    swap
    · rw [if_neg hb]; exact ⟨hI, du, hdu⟩
    rw [if_pos hb]
    have hc0 : 0 ≤ c := hP _ _ _ hc
    have hdu0 : 0 ≤ du := hI.nonneg _ _ hdu
    have hvs : P.key v ≠ P.key s := by
      intro h
      rw [h, hI.start] at hb
      unfold better at hb
      linarith
    have hvu : P.key u.1 ≠ P.key v := by
      intro h
      rw [← h, hdu] at hb
      unfold better at hb
      linarith
    obtain ⟨lu, hlu⟩ := hI.chain _ _ hdu
    have hoff : ∀ p ∈ lu, P.key p.1 ≠ P.key v := by
      intro p hp h
      obtain ⟨dp, h1, h2⟩ := hlu.dist_le hP hI hdu p hp
      rw [← h, h1] at hb
      unfold better at hb
      linarith
    have hlu' := hlu.update_off (P.key v) u hvu hoff
    refine ⟨⟨?_, ?_, ?_, ?_, ?_⟩, ?_⟩
    · unfold relaxUpdate; dsimp only; rw [if_neg (Ne.symm hvs)]; exact hI.start
    · intro e he
      unfold relaxUpdate at he ⊢
      dsimp only at he ⊢
      rcases List.mem_cons.mp he with rfl | he
      · exact ⟨Or.inr ⟨rfl, hvs⟩, du + c, by rw [if_pos rfl]⟩
      · obtain ⟨h1, d, h2⟩ := hI.queue e he
        refine ⟨h1, ?_⟩
        by_cases hk : P.key e.1.1 = P.key v
        · exact ⟨du + c, by rw [if_pos hk]⟩
        · exact ⟨d, by rw [if_neg hk]; exact h2⟩
    · intro k d h
      unfold relaxUpdate at h
      dsimp only at h
      by_cases hk : k = P.key v
      · rw [if_pos hk] at h
        rw [← Option.some_inj.mp h]
        linarith
      · rw [if_neg hk] at h
        exact hI.nonneg _ _ h
    · intro k d h hks
      unfold relaxUpdate at h ⊢
      dsimp only at h ⊢
      by_cases hk : k = P.key v
      · rw [if_pos hk] at h ⊢
        refine ⟨u, rfl, hu, du, v, c, ?_, hv, hl, hk.symm, hc, ?_⟩
        · rw [if_neg hvu]; exact hdu
        · rw [← Option.some_inj.mp h]
      · rw [if_neg hk] at h ⊢
        obtain ⟨p, h1, h2, dp, w, c', h3, h4, h5, h6, h7, h8⟩ := hI.edge k d h hks
        refine ⟨p, h1, h2, ?_⟩
        by_cases hpv : P.key p.1 = P.key v
        · refine ⟨du + c, w, c', by rw [if_pos hpv], h4, h5, h6, h7, ?_⟩
          rw [← hpv, h3] at hb
          unfold better at hb
          linarith
        · exact ⟨dp, w, c', by rw [if_neg hpv]; exact h3, h4, h5, h6, h7, h8⟩
    · intro k d h
      unfold relaxUpdate at h ⊢
      dsimp only at h ⊢
      by_cases hk : k = P.key v
      · subst hk
        exact ⟨u :: lu, Chain.step hvs (by rw [if_pos rfl]) hlu'⟩
      · rw [if_neg hk] at h
        obtain ⟨l, hl'⟩ := hI.chain k d h
        exact hl'.update_on (P.key v) u hvs lu hlu'
    · unfold relaxUpdate
      dsimp only
      exact ⟨du, by rw [if_neg hvu]; exact hdu⟩

theorem foldl_relax_inv {P : Problem ν κ K} (hP : NonnegCost P) {s : ν} (u : Ref ν) (hu : RefOk P s u) (l : List ν)
    (hl : ∀ v ∈ l, v ∈ P.nbrs u.1) {st : SearchSt ν κ K} (hI : SearchInv P s st) (hud : ∃ d, st.dist (P.key u.1) = some d) :
    SearchInv P s (l.foldl (relax P u) st) := by
  induction l generalizing st with
  | nil => exact hI
  | cons v l ih =>
      obtain ⟨h1, h2⟩ := relax_inv hP u hI hu hud (hl v (List.mem_cons_self ..))
      exact ih (fun w hw => hl w (List.mem_cons_of_mem _ hw)) h1 h2

theorem popTop_mem {P : Problem ν κ K} {l : List (Ref ν × K)} {e : Ref ν × K} {rest : List (Ref ν × K)}
    (h : popTop P l = some (e, rest)) : e ∈ l ∧ (∀ x ∈ rest, x ∈ l) ∧ rest.length + 1 = l.length := by
  unfold popTop at h
  rw [Option.map_eq_some_iff] at h
  obtain ⟨e', h1, h2⟩ := h
  rw [Prod.mk.injEq] at h2
  obtain ⟨rfl, rfl⟩ := h2
  have hlt : P.pick l % l.length < l.length := (List.getElem?_eq_some_iff.mp h1).1
  refine ⟨List.mem_of_getElem? h1, fun x hx => List.mem_of_mem_eraseIdx hx, ?_⟩
  rw [List.length_eraseIdx_of_lt hlt]
  omega

theorem popTop_none {P : Problem ν κ K} {l : List (Ref ν × K)} (h : popTop P l = none) : l = [] := by
  unfold popTop at h
  rw [Option.map_eq_none_iff, List.getElem?_eq_none_iff] at h
  cases l with
  | nil => rfl
  | cons a l =>
      have : P.pick (a :: l) % (a :: l).length < (a :: l).length := Nat.mod_lt _ (by simp)
      omega

theorem SearchInv.frame {P : Problem ν κ K} {s : ν} {st : SearchSt ν κ K} (hI : SearchInv P s st) (pq' : List (Ref ν × K))
    (seen' : List κ) (iter' : ℕ) (h : ∀ x ∈ pq', x ∈ st.pq) :
    SearchInv P s { st with pq := pq', seen := seen', iter := iter' } :=
  ⟨hI.start, fun e he => hI.queue e (h e he), hI.nonneg, hI.edge, hI.chain⟩

theorem iterateOnce_inv {P : Problem ν κ K} (hP : NonnegCost P) {s : ν} (max : ℕ) {st : SearchSt ν κ K} (hI : SearchInv P s st) :
    match iterateOnce P max st with
    | .running st' => SearchInv P s st'
    | .found r st' => SearchInv P s st' ∧ RefOk P s r ∧ (∃ d, st'.dist (P.key r.1) = some d) ∧ P.goal r.1 = true
    | .stopped st' => SearchInv P s st' := by
  unfold iterateOnce
  by_cases hm : st.iter < max
  swap
  · rw [if_neg hm]; exact hI
  rw [if_pos hm]
  cases hp : popTop P st.pq with
  | none => exact hI
  | some er =>
    obtain ⟨e, rest⟩ := er
    obtain ⟨he, hrest, _⟩ := popTop_mem hp
    dsimp only
    by_cases hs : P.key e.1.1 ∈ st.seen
    · rw [if_pos hs]
      exact hI.frame rest st.seen st.iter hrest
    · rw [if_neg hs]
      by_cases hg : P.goal e.1.1 = true
      · rw [if_pos hg]
        exact ⟨hI.frame rest _ st.iter hrest, (hI.queue e he).1, (hI.queue e he).2, hg⟩
      · rw [if_neg hg]
        unfold expand
        exact foldl_relax_inv hP e.1 (hI.queue e he).1 _ (fun v hv => hv) (hI.frame rest _ _ hrest) (hI.queue e he).2

theorem runLoop_inv {P : Problem ν κ K} (hP : NonnegCost P) {s : ν} (max n : ℕ) {st : SearchSt ν κ K} (hI : SearchInv P s st)
    {o : Option (Ref ν)} {st' : SearchSt ν κ K} (h : runLoop P max n st = some (o, st')) :
    SearchInv P s st' ∧ ∀ r, o = some r → RefOk P s r ∧ (∃ d, st'.dist (P.key r.1) = some d) ∧ P.goal r.1 = true := by
  induction n generalizing st with
  | zero => exact absurd h (by simp [runLoop])
  | succ n ih =>
      have hi := iterateOnce_inv hP max hI
      unfold runLoop at h
      cases hit : iterateOnce P max st with
      | running st1 => rw [hit] at h hi; exact ih hi h
      | found r st1 =>
          rw [hit] at h hi
          dsimp only at h hi
          rw [Option.some_inj, Prod.mk.injEq] at h
          obtain ⟨rfl, rfl⟩ := h
          refine ⟨hi.1, fun r' hr' => ?_⟩
          rw [← Option.some_inj.mp hr']
          exact hi.2
      | stopped st1 =>
          rw [hit] at h hi
          dsimp only at h hi
          rw [Option.some_inj, Prod.mk.injEq] at h
          obtain ⟨rfl, rfl⟩ := h
          exact ⟨hi, fun r' hr' => absurd hr' (by simp)⟩

/-! ## Termination and the number of iterations -/

theorem relax_frame (P : Problem ν κ K) (u : Ref ν) (st : SearchSt ν κ K) (v : ν) :
    (relax P u st v).iter = st.iter ∧ (relax P u st v).seen = st.seen := by
  unfold relax
  split
  · split
    · exact ⟨rfl, rfl⟩
    · split
      · exact ⟨rfl, rfl⟩
      · exact ⟨rfl, rfl⟩
  · exact ⟨rfl, rfl⟩

theorem expand_frame (P : Problem ν κ K) (u : Ref ν) (st : SearchSt ν κ K) :
    (expand P u st).iter = st.iter ∧ (expand P u st).seen = st.seen := by
  unfold expand
  generalize P.nbrs u.1 = l
  induction l generalizing st with
  | nil => exact ⟨rfl, rfl⟩
  | cons v l ih =>
      rw [List.foldl_cons, (ih _).1, (ih _).2]
      exact relax_frame P u st v

/-- Every pass either ends the loop, or uses up one iteration, or takes one entry off the queue. -/
theorem iterateOnce_progress (P : Problem ν κ K) (max : ℕ) (st st' : SearchSt ν κ K) (h : iterateOnce P max st = .running st') :
    (st'.iter = st.iter + 1 ∧ st.iter < max) ∨ (st'.iter = st.iter ∧ st'.pq.length + 1 = st.pq.length) := by
  unfold iterateOnce at h
  by_cases hm : st.iter < max
  swap
  · rw [if_neg hm] at h; exact absurd h (by simp)
  rw [if_pos hm] at h
  cases hp : popTop P st.pq with
  | none => rw [hp] at h; exact absurd h (by simp)
  | some er =>
    obtain ⟨e, rest⟩ := er
    rw [hp] at h
    dsimp only at h
    by_cases hs : P.key e.1.1 ∈ st.seen
    · rw [if_pos hs] at h
      injection h with h
      subst h
      exact Or.inr ⟨rfl, (popTop_mem hp).2.2⟩
    · rw [if_neg hs] at h
      by_cases hg : P.goal e.1.1 = true
      · rw [if_pos hg] at h; exact absurd h (by simp)
      · rw [if_neg hg] at h
        injection h with h
        subst h
        exact Or.inl ⟨(expand_frame P _ _).1, hm⟩

theorem runLoop_terminates (P : Problem ν κ K) (max : ℕ) :
    ∀ (a b : ℕ) (st : SearchSt ν κ K), max - st.iter = a → st.pq.length = b → ∃ n r, runLoop P max n st = some r := by
  intro a
  induction a using Nat.strong_induction_on with
  | _ a iha =>
    intro b
    induction b with
    | zero =>
        intro st ha hb
        refine ⟨1, (none, st), ?_⟩
        unfold runLoop iterateOnce
        have hnil : st.pq = [] := List.eq_nil_of_length_eq_zero hb
        have : popTop P st.pq = none := by unfold popTop; rw [hnil]; rfl
        rw [this]
        split <;> simp_all
    | succ b ihb =>
        intro st ha hb
        cases hit : iterateOnce P max st with
        | running st1 =>
            rcases iterateOnce_progress P max st st1 hit with ⟨h1, h2⟩ | ⟨h1, h2⟩
            · obtain ⟨n, r, hn⟩ := iha (max - st1.iter) (by omega) st1.pq.length st1 rfl rfl
              exact ⟨n + 1, r, by unfold runLoop; rw [hit]; exact hn⟩
            · obtain ⟨n, r, hn⟩ := ihb st1 (by omega) (by omega)
              exact ⟨n + 1, r, by unfold runLoop; rw [hit]; exact hn⟩
        | found r st1 => exact ⟨1, (some r, st1), by unfold runLoop; rw [hit]⟩
        | stopped st1 => exact ⟨1, (none, st1), by unfold runLoop; rw [hit]⟩

theorem runLoop_mono (P : Problem ν κ K) (max n m : ℕ) (hnm : n ≤ m) (st : SearchSt ν κ K) {r}
    (h : runLoop P max n st = some r) : runLoop P max m st = some r := by
  induction n generalizing st m with
  | zero => exact absurd h (by simp [runLoop])
  | succ n ih =>
      obtain ⟨m, rfl⟩ : ∃ m', m = m' + 1 := ⟨m - 1, by omega⟩
      unfold runLoop at h ⊢
      cases hit : iterateOnce P max st with
      | running st1 => rw [hit] at h; exact ih m (by omega) st1 h
      | found r st1 => rw [hit] at h; exact h
      | stopped st1 => rw [hit] at h; exact h

theorem runLoop_iter (P : Problem ν κ K) (max n : ℕ) (st : SearchSt ν κ K) (hst : st.iter ≤ max) {o} {st'}
    (h : runLoop P max n st = some (o, st')) : st'.iter ≤ max := by
  induction n generalizing st with
  | zero => exact absurd h (by simp [runLoop])
  | succ n ih =>
      unfold runLoop at h
      cases hit : iterateOnce P max st with
      | running st1 =>
          rw [hit] at h
          exact ih st1 (by rcases iterateOnce_progress P max st st1 hit with h' | h' <;> omega) h
      | found r st1 =>
          rw [hit] at h
          dsimp only at h
          rw [Option.some_inj, Prod.mk.injEq] at h
          obtain ⟨rfl, rfl⟩ := h
          have : st1.iter = st.iter := by
            unfold iterateOnce at hit
            split at hit
            · split at hit
              · exact absurd hit (by simp)
              · split at hit
                · exact absurd hit (by simp)
                · split at hit
                  · injection hit with h1 h2
                    rw [← h2]
                  · exact absurd hit (by simp)
            · exact absurd hit (by simp)
          omega
      | stopped st1 =>
          rw [hit] at h
          dsimp only at h
          rw [Option.some_inj, Prod.mk.injEq] at h
          obtain ⟨rfl, rfl⟩ := h
          have : st1 = st := by
            unfold iterateOnce at hit
            split at hit
            · split at hit
              · injection hit with h1; exact h1.symm
              · split at hit
                · exact absurd hit (by simp)
                · split at hit <;> exact absurd hit (by simp)
            · injection hit with h1; exact h1.symm
          rw [this]; exact hst

/-! ## Walking back -/

/-- Walking back from a reference whose key has a chain ends at the start pointer and lists a legal path. -/
theorem walkBack_spec {P : Problem ν κ K} {s : ν} {st : SearchSt ν κ K} (hI : SearchInv P s st)
    {k : κ} {l : List (Ref ν)} (h : Chain P s st.parent k l) :
    ∀ (r : Ref ν), P.key r.1 = k → RefOk P s r → ∀ (d : K), st.dist k = some d → ∃ back t,
      (∀ n, l.length + 1 ≤ n → walkBack P st n r = some back) ∧
      PathCost P (back ++ [s]).reverse t ∧ t ≤ d ∧ (back ++ [s]).head? = some r.1 ∧
      (back ++ [s]).map P.key = k :: l.map (fun p => P.key p.1) := by
  induction h with
  | start =>
      intro r hr hok d hd
      rcases hok with ⟨h1, h2⟩ | ⟨h1, h2⟩
      · refine ⟨[], 0, ?_, PathCost.single s, ?_, ?_, ?_⟩
        · intro n hn
          obtain ⟨n, rfl⟩ : ∃ m, n = m + 1 := ⟨n - 1, by simp at hn; omega⟩
          unfold walkBack
          rw [if_pos h1]
        · exact hI.nonneg _ _ hd
        · rw [h2]; rfl
        · rfl
      · exact absurd hr h2
  | @step k p l hks hpar hch ih =>
      intro r hr hok d hd
      have hr2 : r.2 = false := by
        rcases hok with ⟨h1, h2⟩ | ⟨h1, h2⟩
        · rw [h2] at hr; exact absurd hr.symm hks
        · exact h1
      obtain ⟨p', hp', hpok, dp, v, c, h1, h2, h3, h4, h5, h6⟩ := hI.edge k d hd hks
      rw [hpar, Option.some_inj] at hp'
      subst hp'
      obtain ⟨back, t, hw, hpc, ht, hhd, hns⟩ := ih p rfl hpok dp h1
      refine ⟨r.1 :: back, t + c, ?_, ?_, by linarith, rfl, ?_⟩
      · intro n hn
        obtain ⟨n, rfl⟩ : ∃ m, n = m + 1 := ⟨n - 1, by rw [List.length_cons] at hn; omega⟩
        unfold walkBack
        rw [if_neg (by rw [hr2]; simp), hr, hpar]
        dsimp only
        rw [hw n (by rw [List.length_cons] at hn; omega)]
        rfl
      · rw [List.cons_append, List.reverse_cons]
        refine hpc.snoc (a := p.1) ?_ ⟨v, h2, h3, by rw [h4, hr], h5⟩
        rw [List.getLast?_reverse]
        exact hhd
      · rw [List.cons_append, List.map_cons, hns, hr, List.map_cons]

/-! ## The theorems -/

/-- **C53**: the search always comes to an end, whatever the graph, the heuristic and the order of the queue: there is a
number of steps after which it has a result, and the result stays the same with more steps. In particular the walk back from the
goal reaches the start and never follows a missing parent. -/
theorem C53_terminates (P : Problem ν κ K) (hP : NonnegCost P) (s : ν) (max : ℕ) :
    ∃ n r, ∀ m, n ≤ m → findSmoothPath P s max m = some r := by
  obtain ⟨n, ⟨o, st⟩, hn⟩ := runLoop_terminates P max _ _ (SearchSt.init P s) rfl rfl
  obtain ⟨hI, hfound⟩ := runLoop_inv hP max n (SearchInv.init P s) hn
  cases o with
  | none =>
      refine ⟨n, (none, st.iter), fun m hm => ?_⟩
      unfold findSmoothPath
      rw [runLoop_mono P max n m hm _ hn]
  | some r =>
      obtain ⟨hok, ⟨d, hd⟩, _⟩ := hfound r rfl
      obtain ⟨l, hl⟩ := hI.chain _ _ hd
      obtain ⟨back, t, hw, _⟩ := walkBack_spec hI hl r rfl hok d hd
      refine ⟨Nat.max n (l.length + 1), (some (back ++ [s]).reverse, st.iter), fun m hm => ?_⟩
      unfold findSmoothPath
      rw [runLoop_mono P max n m (le_trans (Nat.le_max_left _ _) hm) _ hn]
      dsimp only
      rw [hw m (le_trans (Nat.le_max_right _ _) hm)]
      rfl

/-- **C53**: the search never expands more nodes than it was allowed to. -/
theorem C53_iterations (P : Problem ν κ K) (s : ν) (max n : ℕ) {o : Option (List ν)} {it : ℕ}
    (h : findSmoothPath P s max n = some (o, it)) : it ≤ max := by
  unfold findSmoothPath at h
  cases hr : runLoop P max n (SearchSt.init P s) with
  | none => rw [hr] at h; exact absurd h (by simp)
  | some q =>
      obtain ⟨o', st⟩ := q
      have hb := runLoop_iter P max n _ (Nat.zero_le _) hr
      rw [hr] at h
      cases o' with
      | none =>
          dsimp only at h
          rw [Option.some_inj, Prod.mk.injEq] at h
          rw [← h.2]; exact hb
      | some r =>
          dsimp only at h
          rw [Option.map_eq_some_iff] at h
          obtain ⟨_, _, h2⟩ := h
          rw [Prod.mk.injEq] at h2
          rw [← h2.2]; exact hb

theorem found_core (P : Problem ν κ K) (hP : NonnegCost P) (s : ν) (max n : ℕ) {path : List ν} {it : ℕ}
    (h : findSmoothPath P s max n = some (some path, it)) :
    ∃ r st d t, runLoop P max n (SearchSt.init P s) = some (some r, st) ∧ st.dist (P.key r.1) = some d ∧ t ≤ d ∧ PathCost P path t ∧
      path.head? = some s ∧ path.getLast? = some r.1 ∧ P.goal r.1 = true ∧ (path.map P.key).Nodup := by
  unfold findSmoothPath at h
  cases hr : runLoop P max n (SearchSt.init P s) with
  | none => rw [hr] at h; exact absurd h (by simp)
  | some q =>
      obtain ⟨o', st⟩ := q
      obtain ⟨hI, hfound⟩ := runLoop_inv hP max n (SearchInv.init P s) hr
      rw [hr] at h
      cases o' with
      | none =>
          dsimp only at h
          rw [Option.some_inj, Prod.mk.injEq] at h
          exact absurd h.1 (by simp)
      | some r =>
          dsimp only at h
          rw [Option.map_eq_some_iff] at h
          obtain ⟨back, hb, h2⟩ := h
          rw [Prod.mk.injEq, Option.some_inj] at h2
          obtain ⟨rfl, rfl⟩ := h2
          obtain ⟨hok, ⟨d, hd⟩, hg⟩ := hfound r rfl
          obtain ⟨l, hl⟩ := hI.chain _ _ hd
          obtain ⟨back', t, hw, hpc, ht, hhd, hns⟩ := walkBack_spec hI hl r rfl hok d hd
          have hmono : ∀ (a : ℕ) (r : Ref ν) (b : List ν), walkBack P st a r = some b → ∀ a', a ≤ a' → walkBack P st a' r = some b := by
            intro a
            induction a with
            | zero => intro r b hab; exact absurd hab (by simp [walkBack])
            | succ a iha =>
                intro r b hab a' ha'
                obtain ⟨a', rfl⟩ : ∃ x, a' = x + 1 := ⟨a' - 1, by omega⟩
                unfold walkBack at hab ⊢
                by_cases hr2 : r.2 = true
                · rw [if_pos hr2] at hab ⊢; exact hab
                · rw [if_neg hr2] at hab ⊢
                  cases hpr : st.parent (P.key r.1) with
                  | none => rw [hpr] at hab; exact absurd hab (by simp)
                  | some p =>
                      rw [hpr] at hab
                      dsimp only at hab ⊢
                      rw [Option.map_eq_some_iff] at hab ⊢
                      obtain ⟨b', hb1, hb2⟩ := hab
                      exact ⟨b', iha p b' hb1 a' (by omega), hb2⟩
          have he : back = back' := by
            have e1 := hmono n r back hb (Nat.max n (l.length + 1)) (Nat.le_max_left _ _)
            have e2 := hw (Nat.max n (l.length + 1)) (Nat.le_max_right _ _)
            rw [e1] at e2
            exact Option.some_inj.mp e2
          subst he
          refine ⟨r, st, d, t, rfl, hd, ht, hpc, ?_, ?_, hg, ?_⟩
          · rw [List.reverse_append]; rfl
          · rw [List.getLast?_reverse]; exact hhd
          · rw [List.map_reverse, List.nodup_reverse, hns]
            exact hl.nodup

/-- **C53**: whenever the search reports a path, the path starts in the start node, ends in a node accepted as goal, every
node is reached from the one before by a legal move of the planner, and no node occurs twice on the path. -/
theorem C53_path_legal (P : Problem ν κ K) (hP : NonnegCost P) (s : ν) (max n : ℕ) {path : List ν} {it : ℕ}
    (h : findSmoothPath P s max n = some (some path, it)) :
    (∃ t, PathCost P path t) ∧ path.head? = some s ∧ (∃ g, path.getLast? = some g ∧ P.goal g = true) ∧
    (path.map P.key).Nodup := by
  obtain ⟨r, st, d, t, _, _, _, h1, h2, h3, h4, h5⟩ := found_core P hP s max n h
  exact ⟨⟨t, h1⟩, h2, ⟨r.1, h3, h4⟩, h5⟩

end Global
end Avoidance
