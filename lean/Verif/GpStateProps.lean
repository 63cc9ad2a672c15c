import Verif.GpState
import Verif.GpNodeProps
import Mathlib.Data.List.Destutter

/-!
# State of the global planner: C56 (way back), C57 (risk cache), C58 (goals), C59 (rate of map updates)
-/

namespace Avoidance
namespace Global

set_option linter.unusedSectionVars false

section
variable {K : Type*} [Field K] [LinearOrder K] [IsStrictOrderedRing K] [FloorRing K]

/-! ## C56 -/

/-- **Specification**: a list without immediate repetitions of an entry. -/
def squeeze : List Cell → List Cell
  | [] => []
  | [a] => [a]
  | a :: b :: t => if a = b then squeeze (b :: t) else a :: squeeze (b :: t)

theorem squeeze_snoc (l : List Cell) (c : Cell) : squeeze (l ++ [c]) = if l.getLast? = some c then squeeze l else squeeze l ++ [c] := by
  induction l with
  | nil => simp [squeeze]
  | cons a t ih =>
      cases t with
      | nil =>
          simp only [List.cons_append, List.nil_append, squeeze, List.getLast?_singleton, Option.some.injEq]
          by_cases h : a = c
          · subst h; simp
          · simp [h]
      | cons b t' =>
          simp only [List.cons_append] at ih ⊢
          rw [squeeze, List.getLast?_cons_cons, ih]
          rw [squeeze]
          by_cases h : a = b
          · rw [if_pos h, if_pos h]
          · rw [if_neg h, if_neg h]
            split
            · rfl
            · rfl

theorem squeeze_getLast (l : List Cell) : (squeeze l).getLast? = l.getLast? := by
  induction l with
  | nil => rfl
  | cons a t ih =>
      cases t with
      | nil => rfl
      | cons b t' =>
          rw [squeeze, List.getLast?_cons_cons]
          by_cases h : a = b
          · rw [if_pos h, ih]
          · rw [if_neg h, List.getLast?_cons, ih, List.getLast?_cons]
            rfl

theorem squeeze_nil (l : List Cell) : squeeze l = [] ↔ l = [] := by
  constructor
  · intro h
    have := squeeze_getLast l
    rw [h] at this
    exact List.getLast?_eq_none_iff.mp this.symm
  · rintro rfl; rfl

theorem squeeze_chain (l : List Cell) : (squeeze l).IsChain (· ≠ ·) ∧ (squeeze l).head? = l.head? := by
  induction l with
  | nil => exact ⟨List.IsChain.nil, rfl⟩
  | cons a t ih =>
      cases t with
      | nil => exact ⟨List.IsChain.singleton _, rfl⟩
      | cons b t' =>
          rw [squeeze]
          by_cases h : a = b
          · rw [if_pos h]
            refine ⟨ih.1, ?_⟩
            rw [ih.2, h]
            rfl
          · rw [if_neg h]
            refine ⟨?_, rfl⟩
            cases hs : squeeze (b :: t') with
            | nil => exact List.IsChain.singleton _
            | cons x y =>
                rw [List.isChain_cons_cons]
                have h1 := ih.1
                have h2 := ih.2
                rw [hs] at h1 h2
                refine ⟨?_, h1⟩
                have : x = b := by simpa using h2
                rw [this]
                exact h

theorem setPose_frame (sc : K) (st : GpSt K) (ps : List (V3 K)) :
    (ps.foldl (setPose sc) st).goingBack = st.goingBack ∧ (ps.foldl (setPose sc) st).goal = st.goal ∧
    (ps.foldl (setPose sc) st).waypoints = st.waypoints ∧ (ps.foldl (setPose sc) st).blocked = st.blocked := by
  induction ps generalizing st with
  | nil => exact ⟨rfl, rfl, rfl, rfl⟩
  | cons p t ih =>
      rw [List.foldl_cons]
      exact ih (setPose sc st p)

/-- **C56**: while a mission is flown, the recorded way is the sequence of cells visited, without immediate repetitions: it starts in the
first cell, ends in the current one, and never has the same cell twice in a row. -/
theorem C56_history (sc : K) (st : GpSt K) (hg : st.goingBack = false) (hb : st.back = []) (ps : List (V3 K)) :
    (ps.foldl (setPose sc) st).back = squeeze (ps.map (cellOf sc)) ∧
    (ps.foldl (setPose sc) st).back.IsChain (· ≠ ·) ∧
    (ps.foldl (setPose sc) st).back.head? = (ps.map (cellOf sc)).head? ∧
    (ps.foldl (setPose sc) st).back.getLast? = (ps.map (cellOf sc)).getLast? := by
  have key : (ps.foldl (setPose sc) st).back = squeeze (ps.map (cellOf sc)) := by
    induction ps using List.reverseRecOn with
    | nil => exact hb
    | append_singleton l p ih =>
        rw [List.foldl_append, List.foldl_cons, List.foldl_nil, List.map_append, List.map_cons, List.map_nil, squeeze_snoc]
        have e : ∀ (s : GpSt K), (setPose sc s p).back =
            if s.goingBack = false ∧ (s.back = [] ∨ s.back.getLast? ≠ some (cellOf sc p)) then s.back ++ [cellOf sc p] else s.back := fun s => rfl
        rw [e, ih, (setPose_frame sc st l).1, hg, squeeze_getLast]
        by_cases h : (l.map (cellOf sc)).getLast? = some (cellOf sc p)
        · rw [if_pos h, if_neg]
          rintro ⟨_, h1 | h1⟩
          · rw [(squeeze_nil _).mp h1] at h; exact absurd h (by simp)
          · exact h1 h
        · rw [if_neg h, if_pos ⟨rfl, Or.inr h⟩]
  rw [key]
  exact ⟨rfl, (squeeze_chain _).1, (squeeze_chain _).2, squeeze_getLast _⟩

/-- **C56** (limit of the claim): before the first goal message nothing is recorded. -/
theorem C56_nothing_before_goal (sc : K) (st : GpSt K) (hg : st.goingBack = true) (ps : List (V3 K)) :
    (ps.foldl (setPose sc) st).back = st.back := by
  induction ps generalizing st with
  | nil => rfl
  | cons p t ih =>
      rw [List.foldl_cons, ih (setPose sc st p) hg]
      unfold setPose
      rw [if_neg (by rw [hg]; simp)]

theorem backIndex_spec (risk : Cell → Option K) (path : List Cell) :
    ∀ (n i j : ℕ), backIndex risk path n i = some j → 5 < j ∧ i ≤ j ∧ j < path.length - 1 ∧ belowHalf (risk (path.getD j default)) = true ∧
      ∀ k, i ≤ k → k < j → 5 < k → belowHalf (risk (path.getD k default)) = false := by
  intro n
  induction n with
  | zero => intro i j h; exact absurd h (by unfold backIndex; simp)
  | succ n ih =>
      intro i j h
      unfold backIndex at h
      by_cases h1 : i < path.length - 1
      · rw [if_pos h1] at h
        by_cases h2 : 5 < i ∧ belowHalf (risk (path.getD i default)) = true
        · rw [if_pos h2, Option.some_inj] at h
          subst h
          exact ⟨h2.1, le_refl _, h1, h2.2, fun k a b => by omega⟩
        · rw [if_neg h2] at h
          obtain ⟨a, b, c, d, e⟩ := ih (i + 1) j h
          refine ⟨a, by omega, c, d, fun k hk1 hk2 hk3 => ?_⟩
          rcases Nat.eq_or_lt_of_le hk1 with rfl | hlt
          · rw [← Bool.not_eq_true]
            exact fun hb => h2 ⟨hk3, hb⟩
          · exact e k hlt hk2 hk3
      · rw [if_neg h1] at h
        exact absurd h (by simp)

theorem backIndex_none (risk : Cell → Option K) (path : List Cell) :
    ∀ (n i : ℕ), path.length ≤ n + i → backIndex risk path n i = none →
      ∀ k, i ≤ k → k < path.length - 1 → 5 < k → belowHalf (risk (path.getD k default)) = false := by
  intro n
  induction n with
  | zero => intro i hn _ k hk1 hk2; omega
  | succ n ih =>
      intro i hn h k hk1 hk2 hk3
      unfold backIndex at h
      rw [if_pos (by omega)] at h
      by_cases h2 : 5 < i ∧ belowHalf (risk (path.getD i default)) = true
      · rw [if_pos h2] at h; exact absurd h (by simp)
      · rw [if_neg h2] at h
        rcases Nat.eq_or_lt_of_le hk1 with rfl | hlt
        · rw [← Bool.not_eq_true]
          exact fun hb => h2 ⟨hk3, hb⟩
        · exact ih (i + 1) (by omega) h k hlt hk2 hk3

/-- **C56**: going back follows the recorded way in reverse, at least six steps, and stops at the first cell after that whose risk is
below one half (or runs to the beginning if there is none); the last cell becomes the goal; without a recorded way the behaviour is
undefined. -/
theorem C56_go_back (risk : Cell → Option K) (st : GpSt K) :
    (goBack risk st = none ↔ st.back = []) ∧
    ∀ st', goBack risk st = some st' →
      st'.goingBack = true ∧ st'.path <+: st.back.reverse ∧ st'.path ≠ [] ∧ st'.path.getLast? = some st'.goal.cell ∧
      (st'.path.length < st.back.length → 7 ≤ st'.path.length ∧ belowHalf (risk st'.goal.cell) = true) ∧
      (∀ k, 5 < k → k + 1 < st'.path.length → k + 1 < st.back.length → belowHalf (risk (st.back.reverse.getD k default)) = false) := by
  constructor
  · unfold goBack
    by_cases h : st.back = []
    · rw [if_pos h]; exact ⟨fun _ => h, fun _ => rfl⟩
    · rw [if_neg h]; simp [h]
  · intro st' h
    unfold goBack at h
    by_cases hb : st.back = []
    · rw [if_pos hb] at h; exact absurd h (by simp)
    rw [if_neg hb] at h
    dsimp only at h
    have hr : st.back.reverse ≠ [] := by simpa using hb
    have hpos : 0 < st.back.length := List.length_pos_iff.mpr hb
    have hlast : ∀ l : List Cell, l ≠ [] → l.getLast? = some (l.getLastD default) := by
      intro l hl
      cases l with
      | nil => exact absurd rfl hl
      | cons a t => rw [List.getLast?_cons, List.getLastD_cons, List.getLastD_eq_getLast?]
    cases hi : backIndex risk st.back.reverse st.back.reverse.length 1 with
    | some i =>
        rw [hi] at h
        dsimp only at h
        obtain ⟨a, _, c, d, e⟩ := backIndex_spec risk _ _ _ _ hi
        rw [List.length_reverse] at c
        have hlen : (st.back.reverse.take (i + 1)).length = i + 1 := by
          rw [List.length_take, List.length_reverse]; omega
        have hne : st.back.reverse.take (i + 1) ≠ [] := by
          intro hn; rw [hn] at hlen; simp at hlen
        have hgl : (st.back.reverse.take (i + 1)).getLastD default = st.back.reverse.getD i default := by
          rw [List.getLastD_eq_getLast?, List.getLast?_eq_getElem?, hlen, List.getElem?_take, if_pos (by omega), List.getD_eq_getElem?_getD]
          rfl
        rw [← Option.some_inj.mp h]
        refine ⟨rfl, List.take_prefix _ _, hne, hlast _ hne, fun _ => ⟨?_, ?_⟩, fun k hk1 hk2 hk3 => ?_⟩
        · show 7 ≤ (st.back.reverse.take (i + 1)).length
          omega
        · show belowHalf (risk ((st.back.reverse.take (i + 1)).getLastD default)) = true
          rw [hgl]; exact d
        · have : k + 1 < (st.back.reverse.take (i + 1)).length := hk2
          exact e k (by omega) (by omega) hk1
    | none =>
        rw [hi] at h
        dsimp only at h
        rw [← Option.some_inj.mp h]
        refine ⟨rfl, List.prefix_refl _, hr, hlast _ hr, fun hlt => ?_, fun k hk1 hk2 hk3 => ?_⟩
        · have : st.back.reverse.length < st.back.length := hlt
          rw [List.length_reverse] at this
          omega
        · exact backIndex_none risk _ _ 1 (by omega) hi k (by omega) (by rw [List.length_reverse]; omega) hk1

/-- **C56** (violated): what remains recorded after going back part of the way does not continue where the way back ended: one cell between
is forgotten. -/
theorem C56_go_back_forgets_cell_violated (risk : Cell → Option K) (st st' : GpSt K) (h : goBack risk st = some st')
    (hp : st'.path.length < st.back.length) :
    ∃ c, st.back = st'.back ++ c :: st'.path.reverse := by
  unfold goBack at h
  by_cases hb : st.back = []
  · rw [if_pos hb] at h; exact absurd h (by simp)
  rw [if_neg hb] at h
  dsimp only at h
  cases hi : backIndex risk st.back.reverse st.back.reverse.length 1 with
  | none =>
      rw [hi] at h
      dsimp only at h
      rw [← Option.some_inj.mp h] at hp
      have : st.back.reverse.length < st.back.length := hp
      rw [List.length_reverse] at this
      omega
  | some i =>
      rw [hi] at h
      dsimp only at h
      obtain ⟨a, _, c, _, _⟩ := backIndex_spec risk _ _ _ _ hi
      rw [List.length_reverse] at c
      rw [← Option.some_inj.mp h]
      dsimp only
      have hlt : st.back.length - i - 2 < st.back.length := by omega
      refine ⟨st.back[st.back.length - i - 2], ?_⟩
      have e1 : (st.back.reverse.take (i + 1)).reverse = st.back.drop (st.back.length - i - 2 + 1) := by
        rw [List.take_reverse, List.reverse_reverse]
        congr 1
        omega
      rw [e1, ← List.drop_eq_getElem_cons hlt, List.take_append_drop]

/-! ## C57 -/

/-- A run of events. -/
def cacheRun (sc : K) (st : CacheSt K) : List (CacheEvent K) → Option (CacheSt K)
  | [] => some st
  | e :: t => match cacheStep sc st e with
    | none => none
    | some st' => cacheRun sc st' t

/-- every cached value is right -/
def Coherent (sc : K) (st : CacheSt K) : Prop := ∀ c r, st.cache c = some r → cellRisk sc st.world c = some r

theorem coherent_query (sc : K) (st : CacheSt K) (h : Coherent sc st) (c : Cell) {r : K} {st' : CacheSt K} (hq : cachedRisk sc st c = some (r, st')) :
    cellRisk sc st.world c = some r ∧ Coherent sc st' ∧ st'.world = st.world := by
  unfold cachedRisk at hq
  cases hc : st.cache c with
  | some r0 =>
      rw [hc] at hq
      dsimp only at hq
      rw [Option.some_inj, Prod.mk.injEq] at hq
      rw [← hq.1, ← hq.2]
      exact ⟨h c r0 hc, h, rfl⟩
  | none =>
      rw [hc] at hq
      dsimp only at hq
      rw [Option.map_eq_some_iff] at hq
      obtain ⟨r1, h1, h2⟩ := hq
      rw [Prod.mk.injEq] at h2
      rw [← h2.1, ← h2.2]
      refine ⟨h1, fun d r hd => ?_, rfl⟩
      dsimp only at hd
      by_cases he : d = c
      · rw [if_pos he, Option.some_inj] at hd
        subst he; subst hd
        exact h1
      · rw [if_neg he] at hd
        exact h d r hd

/-- **C57**: as long as only maps and queries arrive - no obstacle points and no reconfiguration - every answer is the risk of the cell in
the current map, whatever was asked before. -/
theorem C57_answers_current (sc : K) (st : CacheSt K) (h0 : Coherent sc st) (es : List (CacheEvent K))
    (hes : ∀ e ∈ es, (∃ c, e = .query c) ∨ ∃ t r, e = .map t r) {st' : CacheSt K} (hrun : cacheRun sc st es = some st')
    (c : Cell) {r : K} {st'' : CacheSt K} (hq : cachedRisk sc st' c = some (r, st'')) : cellRisk sc st'.world c = some r := by
  have hco : Coherent sc st' := by
    induction es generalizing st with
    | nil => unfold cacheRun at hrun; rw [← Option.some_inj.mp hrun]; exact h0
    | cons e t ih =>
        unfold cacheRun at hrun
        cases hs : cacheStep sc st e with
        | none => rw [hs] at hrun; exact absurd hrun (by simp)
        | some st1 =>
            rw [hs] at hrun
            refine ih st1 ?_ (fun e he => hes e (List.mem_cons_of_mem _ he)) hrun
            rcases hes e (by simp) with ⟨d, rfl⟩ | ⟨m, res, rfl⟩
            · unfold cacheStep at hs
              rw [Option.map_eq_some_iff] at hs
              obtain ⟨⟨r1, s1⟩, h1, h2⟩ := hs
              have := (coherent_query sc st h0 d h1).2.1
              rw [← h2]; exact this
            · cases m with
              | none => exact absurd hs (by unfold cacheStep; simp)
              | some m =>
                  unfold cacheStep at hs
                  rw [← Option.some_inj.mp hs]
                  intro d r hd
                  exact absurd hd (by simp)
  exact (coherent_query sc st' hco c hq).1

/-- The worlds since the last map, latest first. -/
def worldsSince (sc : K) : CacheSt K → List (RiskWorld K) → List (CacheEvent K) → List (RiskWorld K)
  | _, ws, [] => ws
  | st, ws, e :: t => match cacheStep sc st e with
    | none => ws
    | some st' => worldsSince sc st' (match e with | .map _ _ => [st'.world] | _ => st'.world :: ws) t

/-- **C57**, for every history: an answer is the risk the cell had at some moment since the last map - obstacle points and parameters that
arrived later may be missing from it, but nothing from before the last map can be in it. -/
theorem C57_answers_since_last_map (sc : K) (w0 : RiskWorld K) (es : List (CacheEvent K)) {st' : CacheSt K}
    (hrun : cacheRun sc ⟨w0, fun _ => none⟩ es = some st') (c : Cell) {r : K} {st'' : CacheSt K} (hq : cachedRisk sc st' c = some (r, st'')) :
    ∃ w ∈ worldsSince sc ⟨w0, fun _ => none⟩ [w0] es, cellRisk sc w c = some r := by
  have key : ∀ (es : List (CacheEvent K)) (st : CacheSt K) (ws : List (RiskWorld K)), st.world ∈ ws →
      (∀ c r, st.cache c = some r → ∃ w ∈ ws, cellRisk sc w c = some r) → cacheRun sc st es = some st' →
      st'.world ∈ worldsSince sc st ws es ∧ ∀ c r, st'.cache c = some r → ∃ w ∈ worldsSince sc st ws es, cellRisk sc w c = some r := by
    intro es
    induction es with
    | nil =>
        intro st ws h1 h2 h3
        unfold cacheRun at h3
        rw [← Option.some_inj.mp h3]
        exact ⟨h1, h2⟩
    | cons e t ih =>
        intro st ws h1 h2 h3
        unfold cacheRun at h3
        unfold worldsSince
        cases hs : cacheStep sc st e with
        | none => rw [hs] at h3; exact absurd h3 (by simp)
        | some st1 =>
            rw [hs] at h3
            dsimp only at h3 ⊢
            cases e with
            | query d =>
                dsimp only
                unfold cacheStep at hs
                rw [Option.map_eq_some_iff] at hs
                obtain ⟨⟨r1, s1⟩, g1, g2⟩ := hs
                dsimp only at g2
                subst g2
                refine ih s1 _ (by simp) ?_ h3
                unfold cachedRisk at g1
                cases hc : st.cache d with
                | some r0 =>
                    rw [hc] at g1
                    dsimp only at g1
                    rw [Option.some_inj, Prod.mk.injEq] at g1
                    rw [← g1.2]
                    intro c r hcr
                    obtain ⟨w, hw, hwr⟩ := h2 c r hcr
                    exact ⟨w, List.mem_cons_of_mem _ hw, hwr⟩
                | none =>
                    rw [hc] at g1
                    dsimp only at g1
                    rw [Option.map_eq_some_iff] at g1
                    obtain ⟨r2, g3, g4⟩ := g1
                    rw [Prod.mk.injEq] at g4
                    rw [← g4.2]
                    intro c r hcr
                    dsimp only at hcr
                    by_cases he : c = d
                    · rw [if_pos he, Option.some_inj] at hcr
                      subst he; subst hcr
                      exact ⟨st.world, by simp, g3⟩
                    · rw [if_neg he] at hcr
                      obtain ⟨w, hw, hwr⟩ := h2 c r hcr
                      exact ⟨w, List.mem_cons_of_mem _ hw, hwr⟩
            | map m res =>
                dsimp only
                cases m with
                | none => exact absurd hs (by unfold cacheStep; simp)
                | some m =>
                    unfold cacheStep at hs
                    rw [← Option.some_inj.mp hs] at h3 ⊢
                    exact ih _ _ (by simp) (fun c r hcr => absurd hcr (by simp)) h3
            | obstacle d =>
                dsimp only
                unfold cacheStep at hs
                rw [← Option.some_inj.mp hs] at h3 ⊢
                refine ih _ _ (by simp) (fun c r hcr => ?_) h3
                obtain ⟨w, hw, hwr⟩ := h2 c r hcr
                exact ⟨w, List.mem_cons_of_mem _ hw, hwr⟩
            | reconfigure a b =>
                dsimp only
                unfold cacheStep at hs
                rw [← Option.some_inj.mp hs] at h3 ⊢
                refine ih _ _ (by simp) (fun c r hcr => ?_) h3
                obtain ⟨w, hw, hwr⟩ := h2 c r hcr
                exact ⟨w, List.mem_cons_of_mem _ hw, hwr⟩
  obtain ⟨h1, h2⟩ := key es _ [w0] (by simp) (fun c r h => absurd h (by simp)) hrun
  unfold cachedRisk at hq
  cases hc : st'.cache c with
  | some r0 =>
      rw [hc] at hq
      dsimp only at hq
      rw [Option.some_inj, Prod.mk.injEq] at hq
      rw [← hq.1]
      exact h2 c r0 hc
  | none =>
      rw [hc] at hq
      dsimp only at hq
      rw [Option.map_eq_some_iff] at hq
      obtain ⟨r1, g1, g2⟩ := hq
      rw [Prod.mk.injEq] at g2
      rw [← g2.1]
      exact ⟨st'.world, h1, g1⟩

/-- **C57** (violated): an obstacle point or a reconfiguration does not reach cells asked for before: for *every* world, the answer stays
what it was. -/
theorem C57_stale_violated (sc : K) (st : CacheSt K) (c : Cell) {r : K} {st1 : CacheSt K} (hq : cachedRisk sc st c = some (r, st1))
    (es : List (CacheEvent K)) (hes : ∀ e ∈ es, ∀ t res, e ≠ .map t res) {st2 : CacheSt K} (hrun : cacheRun sc st1 es = some st2) :
    cachedRisk sc st2 c = some (r, st2) := by
  have h1 : st1.cache c = some r := by
    unfold cachedRisk at hq
    cases hc : st.cache c with
    | some r0 =>
        rw [hc] at hq
        dsimp only at hq
        rw [Option.some_inj, Prod.mk.injEq] at hq
        rw [← hq.2, ← hq.1, hc]
    | none =>
        rw [hc] at hq
        dsimp only at hq
        rw [Option.map_eq_some_iff] at hq
        obtain ⟨r1, _, g2⟩ := hq
        rw [Prod.mk.injEq] at g2
        rw [← g2.1, ← g2.2]
        dsimp only
        rw [if_pos rfl]
  have h2 : st2.cache c = some r := by
    clear hq
    induction es generalizing st1 with
    | nil => unfold cacheRun at hrun; rw [← Option.some_inj.mp hrun]; exact h1
    | cons e t ih =>
        unfold cacheRun at hrun
        cases hs : cacheStep sc st1 e with
        | none => rw [hs] at hrun; exact absurd hrun (by simp)
        | some s =>
            rw [hs] at hrun
            refine ih (fun e he => hes e (List.mem_cons_of_mem _ he)) hrun ?_
            cases e with
            | query d =>
                unfold cacheStep at hs
                rw [Option.map_eq_some_iff] at hs
                obtain ⟨⟨r1, s1⟩, g1, g2⟩ := hs
                dsimp only at g2
                subst g2
                unfold cachedRisk at g1
                cases hc : st1.cache d with
                | some r0 =>
                    rw [hc] at g1
                    dsimp only at g1
                    rw [Option.some_inj, Prod.mk.injEq] at g1
                    rw [← g1.2]; exact h1
                | none =>
                    rw [hc] at g1
                    dsimp only at g1
                    rw [Option.map_eq_some_iff] at g1
                    obtain ⟨r2, _, g4⟩ := g1
                    rw [Prod.mk.injEq] at g4
                    rw [← g4.2]
                    dsimp only
                    by_cases he : c = d
                    · subst he; rw [hc] at h1; exact absurd h1 (by simp)
                    · rw [if_neg he]; exact h1
            | map m res => exact absurd rfl (hes _ (by simp) m res)
            | obstacle d => unfold cacheStep at hs; rw [← Option.some_inj.mp hs]; exact h1
            | reconfigure a b => unfold cacheStep at hs; rw [← Option.some_inj.mp hs]; exact h1
  unfold cachedRisk
  rw [h2]

/-- **C57** (violated): a map message that is not an octree crashes the planner. -/
theorem C57_wrong_map_violated (sc : K) (st : CacheSt K) (res : K) : cacheStep sc st (.map none res) = none := rfl

/-- the example world of C60, as a state with an empty cache -/
def exCache : CacheSt ℚ := ⟨exampleWorld, fun _ => none⟩
/-- a run: ask for a cell, see an obstacle, ask again; after the next map the answer is new -/
example : ((cachedRisk 1 exCache ⟨1, 0, 3⟩).map Prod.fst).isSome = true := by decide +kernel
example : ((cacheRun 1 exCache [.query ⟨5, 5, 3⟩, .reconfigure 0 0, .query ⟨5, 5, 3⟩]).bind fun s => cachedRisk 1 s ⟨5, 5, 3⟩).map Prod.fst ≠
    ((cacheRun 1 exCache [.reconfigure 0 0]).bind fun s => cachedRisk 1 s ⟨5, 5, 3⟩).map Prod.fst := by decide +kernel

/-! ## C58 -/

/-- **Specification**: the goal at the bottom: the one the vehicle returns to when all intermediate goals are done. -/
def mission (st : GpSt K) : GoalCell K := (st.goal :: st.waypoints).getLastD st.goal

theorem getGlobalPath_frame (sc : K) (E : PlanEnv K) (st : GpSt K) :
    (getGlobalPath sc E st).1.goal = st.goal ∧ (getGlobalPath sc E st).1.waypoints = st.waypoints ∧ (getGlobalPath sc E st).1.pos = st.pos ∧
    (getGlobalPath sc E st).1.back = st.back := by
  unfold getGlobalPath
  split
  · exact ⟨rfl, rfl, rfl, rfl⟩
  · split
    · exact ⟨rfl, rfl, rfl, rfl⟩
    · dsimp only
      cases (E.find st).path <;> exact ⟨rfl, rfl, rfl, rfl⟩

theorem mission_eq (st : GpSt K) : mission st = st.waypoints.getLastD st.goal := by
  unfold mission
  rw [List.getLastD_cons]

theorem planPath_mission (sc : K) (E : PlanEnv K) (st : GpSt K) : mission (planPath sc E st) = mission st := by
  obtain ⟨h1, h2, _⟩ := getGlobalPath_frame sc E st
  have e0 : mission (getGlobalPath sc E st).1 = mission st := by
    rw [mission_eq, mission_eq, h1, h2]
  unfold planPath
  dsimp only
  split
  · exact e0
  · split
    · unfold setIntermediateGoal
      split
      · rw [← e0, mission_eq]
        unfold setGoal
        dsimp only
        rw [List.getLastD_cons, mission_eq]
      · exact e0
    · exact e0

/-- **C58**: one planning cycle - whatever the map, whatever the searches find - keeps the goal at the bottom of the stack, unless the stack
is empty and the goal was found to be blocked before. -/
theorem C58_cycle_keeps_mission (sc : K) (E : PlanEnv K) (st : GpSt K) (h : st.waypoints ≠ [] ∨ st.blocked = false) :
    mission (plannerLoop sc E st) = mission st := by
  unfold plannerLoop
  rw [planPath_mission]
  split
  · unfold popNextGoal
    cases hw : st.waypoints with
    | nil =>
        dsimp only
        rw [if_neg]
        rcases h with h | h
        · exact absurd hw h
        · rw [h]; simp
    | cons g rest =>
        dsimp only
        rw [mission_eq, mission_eq, hw, List.getLastD_cons]
        rfl
  · rfl

/-- what may happen between two goals of the user -/
inductive GpEvent (K : Type*)
  | pose (p : V3 K)
  | velocity (v : V3 K)
  | cycle (E : PlanEnv K)

def gpStep (sc : K) (st : GpSt K) : GpEvent K → GpSt K
  | .pose p => setPose sc st p
  | .velocity v => { st with vel := v }
  | .cycle E => plannerLoop sc E st

/-- no planning cycle of the run starts with a blocked goal and nothing to fall back to -/
def NeverStuck (sc : K) : GpSt K → List (GpEvent K) → Prop
  | _, [] => True
  | st, e :: t => (match e with | .cycle _ => st.waypoints ≠ [] ∨ st.blocked = false | _ => True) ∧ NeverStuck sc (gpStep sc st e) t

/-- **C58**: over any run of positions, velocities and planning cycles the mission goal is kept below all intermediate goals, until a cycle
starts with a blocked goal and an empty stack. -/
theorem C58_mission_kept (sc : K) (st : GpSt K) (es : List (GpEvent K)) (h : NeverStuck sc st es) :
    mission (es.foldl (gpStep sc) st) = mission st := by
  induction es generalizing st with
  | nil => rfl
  | cons e t ih =>
      obtain ⟨h1, h2⟩ := h
      rw [List.foldl_cons, ih _ h2]
      cases e with
      | pose p => rfl
      | velocity v => rfl
      | cycle E => exact C58_cycle_keeps_mission sc E st h1

/-- **C58** (violated): a blocked goal without intermediate goals is given up: the vehicle's own cell becomes the goal and the mission goal
is forgotten, although the obstacle may disappear with the next map. -/
theorem C58_mission_abandoned_violated (sc : K) (E : PlanEnv K) (st : GpSt K) (h1 : st.waypoints = []) (h2 : st.blocked = true) :
    mission (plannerLoop sc E st) = ⟨cellOf sc st.pos, 1, false⟩ := by
  unfold plannerLoop
  rw [planPath_mission, if_pos (Or.inr h2)]
  unfold popNextGoal
  rw [h1]
  dsimp only
  rw [if_pos h2, mission_eq]
  unfold stop setGoal
  dsimp only
  rw [h1]
  rfl

/-- **C58** (violated): two planning cycles (one second apart) before the first map - when every cell has a risk of at least 1 - are enough to
lose the mission goal. -/
theorem C58_lost_before_first_map_violated (sc : K) (E1 E2 : PlanEnv K) (st : GpSt K) (hw : st.waypoints = []) (hb : st.blocked = false)
    (hf : E1.mustBeFree = true) (hr : tooRisky E1 st.goal.cell = true) :
    mission (plannerLoop sc E2 (plannerLoop sc E1 st)) = ⟨cellOf sc st.pos, 1, false⟩ := by
  have e : plannerLoop sc E1 st = { st with blocked := true } := by
    unfold plannerLoop
    have hpop : popNextGoal sc st = st := by
      unfold popNextGoal
      rw [hw]
      dsimp only
      rw [if_neg (by rw [hb]; simp)]
    have hite : (if st.goal.withinPosition sc st.pos ∨ st.blocked = true then popNextGoal sc st else st) = st := by
      split
      · exact hpop
      · rfl
    rw [hite]
    have hg : getGlobalPath sc E1 st = ({ st with blocked := true }, false) := by
      unfold getGlobalPath
      rw [if_pos ⟨hf, hr⟩]
    unfold planPath
    rw [hg]
    simp
  rw [e]
  exact C58_mission_abandoned_violated sc E2 _ hw rfl

/-- **C58**: when an intermediate goal is set: exactly after a successful search that ended with a factor above 1.05, if the path has more
than ten cells; it lies in the middle of the path, its radius is a quarter of the path's length, and the goal so far comes back when the
intermediate goal is reached or blocked. -/
theorem C58_intermediate_goal (sc : K) (E : PlanEnv K) (st : GpSt K) (hok : (getGlobalPath sc E st).2 = true)
    (hlen : 10 < (getGlobalPath sc E st).1.path.length) (hf : 105 / 100 < (getGlobalPath sc E st).1.factor) :
    let st' := planPath sc E st
    let p := (getGlobalPath sc E st).1.path
    st'.goal.cell ∈ p ∧ p[p.length / 2]? = some st'.goal.cell ∧ st'.goal.radius = ((p.length / 4 : ℕ) : K) ∧ st'.goal.temporary = true ∧
    st'.waypoints = st.goal :: st.waypoints ∧ (popNextGoal sc st').goal = st.goal ∧ (popNextGoal sc st').waypoints = st.waypoints := by
  obtain ⟨h1, h2, _⟩ := getGlobalPath_frame sc E st
  dsimp only
  unfold planPath
  dsimp only
  rw [if_neg (by rw [hok]; simp), if_pos hf]
  unfold setIntermediateGoal
  rw [if_pos hlen]
  have hlt : (getGlobalPath sc E st).1.path.length / 2 < (getGlobalPath sc E st).1.path.length := by omega
  have hget : (getGlobalPath sc E st).1.path[(getGlobalPath sc E st).1.path.length / 2]? =
      some ((getGlobalPath sc E st).1.path.getD ((getGlobalPath sc E st).1.path.length / 2) default) := by
    rw [List.getD_eq_getElem?_getD, List.getElem?_eq_getElem hlt]
    rfl
  unfold setGoal popNextGoal
  dsimp only
  rw [h1, h2]
  exact ⟨List.mem_of_getElem? hget, hget, rfl, rfl, rfl, rfl, rfl⟩

/-- no intermediate goal otherwise: goal and stack stay -/
theorem C58_no_intermediate_goal (sc : K) (E : PlanEnv K) (st : GpSt K)
    (h : (getGlobalPath sc E st).2 = false ∨ (getGlobalPath sc E st).1.path.length ≤ 10 ∨ (getGlobalPath sc E st).1.factor ≤ 105 / 100) :
    (planPath sc E st).goal = st.goal ∧ (planPath sc E st).waypoints = st.waypoints := by
  obtain ⟨h1, h2, _⟩ := getGlobalPath_frame sc E st
  unfold planPath
  dsimp only
  split
  · exact ⟨h1, h2⟩
  · split
    · unfold setIntermediateGoal
      split
      · rcases h with h | h | h
        · contradiction
        · omega
        · rename_i h3 _
          exact absurd h3 (not_lt.mpr h)
      · exact ⟨h1, h2⟩
    · exact ⟨h1, h2⟩

/-- **C58** (violated): a new goal of the user does not clear the stack: when it is reached, the vehicle flies to an old goal. -/
theorem C58_old_goals_survive_violated (sc : K) (E : PlanEnv K) (st : GpSt K) (g : GoalCell K) (old : GoalCell K) (rest : List (GoalCell K))
    (hw : st.waypoints = old :: rest) (p : V3 K) (hp : g.withinPosition sc p)
    (h : (getGlobalPath sc E (popNextGoal sc (setPose sc (setGoal st g) p))).1.factor ≤ 105 / 100) :
    (plannerLoop sc E (setPose sc (setGoal st g) p)).goal = old := by
  unfold plannerLoop
  rw [if_pos (Or.inl (show GoalCell.withinPosition sc (setPose sc (setGoal st g) p).goal (setPose sc (setGoal st g) p).pos from hp))]
  rw [(C58_no_intermediate_goal sc E _ (Or.inr (Or.inr h))).1]
  unfold popNextGoal setPose setGoal
  dsimp only
  rw [hw]

/-- **C58** (violated): a goal message of the flight controller that changes only the altitude (or moves by less than a cell) is ignored. -/
theorem C58_altitude_change_ignored_violated (sc : K) (st : GpSt K) (p : V3 K) (hx : (cellOf sc p).x = st.goal.cell.x)
    (hy : (cellOf sc p).y = st.goal.cell.y) (valid : Bool) : fcuGoal sc st valid p = st := by
  unfold fcuGoal
  dsimp only
  rw [if_neg]
  rintro ⟨_, h⟩
  rw [hx, hy, sub_self, sub_self, abs_zero] at h
  have : ¬ ((1 : K) / 1000 < 0) := by norm_num
  tauto

/-- **C58** (violated): the flight controller repeats its goal while an intermediate goal is flown: the comparison is with the intermediate goal, so
the mission goal is set again without removing it from the stack, and the next intermediate goal stacks it once more - in every cycle. -/
theorem C58_stack_grows_violated (sc : K) (hs : 0 < sc) (p : V3 K) (E : PlanEnv K) (mid : Cell) (path : List Cell) (hlen : 10 < path.length)
    (hmid : path.getD (path.length / 2) default = mid) (hne : mid.x ≠ (cellOf sc p).x ∧ 1 / 1000 < sc)
    (hfind : ∀ st, (E.find st).path = some path ∧ 105 / 100 < (E.find st).factor) (hfree : E.mustBeFree = false) (hocc : ∀ c, E.occupied c = false)
    (st : GpSt K) (hgoal : st.goal = ⟨cellOf sc p, 1, false⟩) (hb : st.blocked = false) (hfar : ¬ st.goal.withinPosition sc st.pos) (n : ℕ) :
    let round := fun s => fcuGoal sc (plannerLoop sc E s) true p
    (round^[n] st).waypoints = List.replicate n ⟨cellOf sc p, 1, false⟩ ++ st.waypoints ∧ (round^[n] st).goal = st.goal ∧
      (round^[n] st).blocked = false ∧ (round^[n] st).pos = st.pos := by
  dsimp only
  induction n with
  | zero => exact ⟨rfl, rfl, hb, rfl⟩
  | succ n ih =>
      rw [Function.iterate_succ_apply']
      generalize (fun s => fcuGoal sc (plannerLoop sc E s) true p)^[n] st = s at ih
      obtain ⟨i1, i2, i3, i4⟩ := ih
      have hloop : plannerLoop sc E s = setGoal { s with factor := (E.find s).factor, maxIter := (E.find s).maxIter, path := path, waypoints := s.goal :: s.waypoints } ⟨mid, ((path.length / 4 : ℕ) : K), true⟩ := by
        unfold plannerLoop
        rw [if_neg (by rw [i2, i4, i3]; rintro (h | h); exacts [hfar h, absurd h (by simp)])]
        have hg : getGlobalPath sc E s = ({ s with factor := (E.find s).factor, maxIter := (E.find s).maxIter, path := path }, true) := by
          unfold getGlobalPath
          rw [if_neg (by rw [hfree]; simp), if_neg (by rw [hocc]; simp)]
          dsimp only
          rw [(hfind s).1]
        unfold planPath
        rw [hg]
        dsimp only
        rw [if_neg (by simp), if_pos (hfind s).2]
        unfold setIntermediateGoal
        dsimp only
        rw [if_pos hlen, hmid]
      rw [hloop]
      unfold fcuGoal setGoal
      dsimp only
      have hd : 1 / 1000 < |pos sc mid.x - pos sc (cellOf sc p).x| := by
        have e : pos sc mid.x - pos sc (cellOf sc p).x = sc * ((mid.x - (cellOf sc p).x : ℤ) : K) := by
          unfold pos; push_cast; ring
        rw [e, abs_mul, abs_of_pos hs]
        have h1 : (1 : K) ≤ |((mid.x - (cellOf sc p).x : ℤ) : K)| := by
          rw [← Int.cast_abs]
          have : 1 ≤ |mid.x - (cellOf sc p).x| := Int.one_le_abs (sub_ne_zero.mpr hne.1)
          exact_mod_cast this
        have h2 := hne.2
        nlinarith
      rw [if_pos ⟨rfl, Or.inl hd⟩]
      dsimp only
      refine ⟨?_, by rw [hgoal], rfl, i4⟩
      rw [i1, i2, hgoal, List.replicate_succ, List.cons_append]

/-- an example: a path of 12 cells, factor 1.25 -/
def exPath : List Cell := (List.range 12).map fun (i : ℕ) => ⟨(i : ℤ), 0, 3⟩
def exEnv : PlanEnv ℚ := { risk := fun _ => some (1 / 100), occupied := fun _ => false, mustBeFree := false, maxCellRisk := 1 / 5, find := fun _ => ⟨5 / 4, 2000, some exPath⟩ }
def exGp : GpSt ℚ := { pos := ⟨1 / 2, 1 / 2, 7 / 2⟩, vel := ⟨0, 0, 0⟩, goal := ⟨⟨11, 0, 3⟩, 1, false⟩, goingBack := false, blocked := false, back := [], maxIter := 2000, factor := 2, path := [], waypoints := [] }

example : (getGlobalPath 1 exEnv exGp).2 = true ∧ 10 < (getGlobalPath 1 exEnv exGp).1.path.length ∧ 105 / 100 < (getGlobalPath 1 exEnv exGp).1.factor := by
  decide +kernel
example : (plannerLoop 1 exEnv exGp).goal = ⟨⟨6, 0, 3⟩, 3, true⟩ ∧ (plannerLoop 1 exEnv exGp).waypoints = [⟨⟨11, 0, 3⟩, 1, false⟩] := by
  decide +kernel
/-- intermediate goal reached: back to the mission -/
example : (popNextGoal 1 (setPose 1 (plannerLoop 1 exEnv exGp) ⟨13 / 2, 1 / 2, 7 / 2⟩)).goal = ⟨⟨11, 0, 3⟩, 1, false⟩ := by decide +kernel
example : NeverStuck 1 exGp [.cycle exEnv, .pose ⟨13 / 2, 1 / 2, 7 / 2⟩, .cycle exEnv] := by
  refine ⟨Or.inr rfl, trivial, Or.inl ?_, trivial⟩
  decide +kernel

/-! ## C59 -/

/-- **C59**: between the moment one map was taken and the arrival of the next one taken lie at least 0.2 s - for every sequence of
messages. -/
theorem C59_rate (last : K) (ms : List (K × K)) :
    (mapsTaken last ms).IsChain (fun a b => 1 / 5 ≤ b.1 - a.2) ∧ ∀ m, (mapsTaken last ms).head? = some m → 1 / 5 ≤ m.1 - last := by
  induction ms generalizing last with
  | nil => exact ⟨List.IsChain.nil, fun m h => absurd h (by simp [mapsTaken])⟩
  | cons m t ih =>
      obtain ⟨t1, t2⟩ := m
      unfold mapsTaken mapCallback
      by_cases h : t1 - last < 1 / 5
      · rw [if_pos h]
        simp only [Bool.false_eq_true, if_false]
        exact ih last
      · rw [if_neg h]
        simp only [if_true]
        obtain ⟨h1, h2⟩ := ih t2
        refine ⟨?_, ?_⟩
        · cases hm : mapsTaken t2 t with
          | nil => exact List.IsChain.singleton _
          | cons x y =>
              rw [List.isChain_cons_cons]
              rw [hm] at h1 h2
              exact ⟨h2 x rfl, h1⟩
        · intro m hm
          simp only [List.head?_cons, Option.some.injEq] at hm
          rw [← hm]
          exact not_lt.mp h

/-- **C59**: with a clock that does not run backwards, any two maps taken are at least 0.2 s apart. -/
theorem C59_any_two (last : K) (ms : List (K × K)) (hc : ∀ m ∈ ms, m.1 ≤ m.2) :
    (mapsTaken last ms).Pairwise (fun a b => 1 / 5 ≤ b.1 - a.1) := by
  have hsub : ∀ m ∈ mapsTaken last ms, m ∈ ms := by
    clear hc
    induction ms generalizing last with
    | nil => intro m h; simp [mapsTaken] at h
    | cons m t ih =>
        obtain ⟨t1, t2⟩ := m
        intro x hx
        unfold mapsTaken at hx
        split at hx
        · rw [List.mem_cons] at hx
          rcases hx with rfl | hx
          · simp
          · exact List.mem_cons_of_mem _ (ih _ x hx)
        · exact List.mem_cons_of_mem _ (ih _ x hx)
  have h1 := (C59_rate last ms).1
  have h2 : ∀ m ∈ mapsTaken last ms, m.1 ≤ m.2 := fun m hm => hc m (hsub m hm)
  generalize mapsTaken last ms = l at h1 h2
  clear hsub hc
  -- from neighbours to all pairs
  have h3 : l.IsChain (fun a b => 1 / 5 ≤ b.1 - a.1) := by
    induction l with
    | nil => exact List.IsChain.nil
    | cons a t ih =>
        cases t with
        | nil => exact List.IsChain.singleton _
        | cons b t' =>
            rw [List.isChain_cons_cons] at h1 ⊢
            exact ⟨by linarith [h1.1, h2 a (by simp)], ih h1.2 (fun m hm => h2 m (List.mem_cons_of_mem _ hm))⟩
  haveI : IsTrans (K × K) (fun a b : K × K => 1 / 5 ≤ b.1 - a.1) := ⟨fun a b c h h' => by
    have : (0 : K) < 1 / 5 := by norm_num
    linarith⟩
  exact List.isChain_iff_pairwise.mp h3

/-- **C59**: no map is dropped that arrives at least 0.2 s after the last one taken. -/
theorem C59_not_starved (last t1 t2 : K) : (mapCallback last t1 t2).2 = true ↔ 1 / 5 ≤ t1 - last := by
  unfold mapCallback
  by_cases h : t1 - last < 1 / 5
  · rw [if_pos h]
    exact ⟨fun hf => absurd hf (by simp), fun hf => absurd h (not_lt.mpr hf)⟩
  · rw [if_neg h]
    exact ⟨fun _ => not_lt.mp h, fun _ => rfl⟩

example : mapsTaken (0 : ℚ) [(1/10, 1/10), (1, 11/10), (12/10, 12/10), (13/10, 13/10), (2, 2)] = [(1, 11/10), (13/10, 13/10), (2, 2)] := by decide +kernel

end

end Global
end Avoidance
