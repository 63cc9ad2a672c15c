import Verif.GpSearchMore

/-!
# The search does the work it is paid for (C72)

The number of iterations the search reports is the number of different nodes it has expanded, all of which can be reached by
legal moves. So the search cannot give up early: with a budget larger than the number of reachable nodes that are no goal it
finds a goal whenever there is one.
-/

namespace Avoidance
namespace Global

set_option linter.unusedSectionVars false

variable {ν κ K : Type*} [DecidableEq κ] [Field K] [LinearOrder K] [IsStrictOrderedRing K]

/-! ## Specification -/

/-- `keys` are (the identities of) different nodes that can be reached from `s` by legal moves and are no goals. -/
def ReachableKeys (P : Problem ν κ K) (s : ν) (keys : List κ) : Prop :=
  keys.Nodup ∧ ∀ k ∈ keys, ∃ a t, P.key a = k ∧ P.goal a = false ∧ Reach P s a t

/-! ## Proofs -/

theorem SearchInv.reachRef {P : Problem ν κ K} {s : ν} {st : SearchSt ν κ K} (hI : SearchInv P s st) {r : Ref ν} (hr : RefOk P s r)
    {d : K} (hd : st.dist (P.key r.1) = some d) : ∃ t, Reach P s r.1 t := by
  obtain ⟨l, hl⟩ := hI.chain _ _ hd
  obtain ⟨back, t, _, hpc, _, hhd, _⟩ := walkBack_spec hI hl r rfl hr d hd
  refine ⟨t, hpc.reach ?_ ?_⟩
  · rw [List.reverse_append]; rfl
  · rw [List.getLast?_reverse]; exact hhd

theorem iterateOnce_effort {P : Problem ν κ K} {s : ν} (max : ℕ) {st : SearchSt ν κ K}
    (hI : SearchInv P s st) (hk : ReachableKeys P s st.seen) (hl : st.seen.length = st.iter) :
    match iterateOnce P max st with
    | .running st' => ReachableKeys P s st'.seen ∧ st'.seen.length = st'.iter
    | .found _ st' => ∃ keys, ReachableKeys P s keys ∧ keys.length = st'.iter
    | .stopped st' => ReachableKeys P s st'.seen ∧ st'.seen.length = st'.iter := by
  unfold iterateOnce
  by_cases hm : st.iter < max
  swap
  · rw [if_neg hm]; exact ⟨hk, hl⟩
  rw [if_pos hm]
  cases hp : popTop P st.pq with
  | none => exact ⟨hk, hl⟩
  | some er =>
    obtain ⟨e, rest⟩ := er
    dsimp only
    by_cases hs : P.key e.1.1 ∈ st.seen
    · rw [if_pos hs]; exact ⟨hk, hl⟩
    · rw [if_neg hs]
      by_cases hg : P.goal e.1.1 = true
      · rw [if_pos hg]; exact ⟨st.seen, hk, hl⟩
      · rw [if_neg hg]
        dsimp only
        rw [(expand_frame P e.1 _).1, (expand_frame P e.1 _).2]
        dsimp only
        refine ⟨⟨List.nodup_cons.mpr ⟨hs, hk.1⟩, ?_⟩, by rw [List.length_cons, hl]⟩
        intro k hkm
        rcases List.mem_cons.mp hkm with rfl | hkm
        · obtain ⟨hok, d, hd⟩ := hI.queue e (popTop_mem hp).1
          obtain ⟨t, ht⟩ := hI.reachRef hok hd
          exact ⟨e.1.1, t, rfl, Bool.eq_false_iff.mpr hg, ht⟩
        · exact hk.2 k hkm

theorem runLoop_effort {P : Problem ν κ K} (hP : NonnegCost P) {s : ν} (max n : ℕ) {st : SearchSt ν κ K} (hI : SearchInv P s st)
    (hk : ReachableKeys P s st.seen) (hl : st.seen.length = st.iter) {o : Option (Ref ν)} {st' : SearchSt ν κ K}
    (h : runLoop P max n st = some (o, st')) : ∃ keys, ReachableKeys P s keys ∧ keys.length = st'.iter := by
  induction n generalizing st with
  | zero => exact absurd h (by simp [runLoop])
  | succ n ih =>
      unfold runLoop at h
      have heff := iterateOnce_effort max hI hk hl
      have hinv := iterateOnce_inv hP max hI
      cases hit : iterateOnce P max st with
      | running st1 => rw [hit] at h heff hinv; exact ih hinv heff.1 heff.2 h
      | found r st1 =>
          rw [hit] at h heff
          obtain ⟨e1, e2⟩ := Prod.mk.inj (Option.some_inj.mp h)
          subst e2
          exact heff
      | stopped st1 =>
          rw [hit] at h heff
          obtain ⟨e1, e2⟩ := Prod.mk.inj (Option.some_inj.mp h)
          subst e2
          exact ⟨st1.seen, heff⟩

/-- **C72**: the iterations reported by the search are exactly so many different nodes that were expanded: whether it fails or
succeeds with `it` iterations, there are `it` different nodes that can be reached from the start by legal moves and are no
goals. -/
theorem C72_effort (P : Problem ν κ K) (hP : NonnegCost P) (s : ν) (max n : ℕ) {o : Option (List ν)} {it : ℕ}
    (h : findSmoothPath P s max n = some (o, it)) : ∃ keys : List κ, ReachableKeys P s keys ∧ keys.length = it := by
  have h0 : ReachableKeys P s (SearchSt.init P s).seen := ⟨List.nodup_nil, fun k hk => absurd hk List.not_mem_nil⟩
  unfold findSmoothPath at h
  cases hr : runLoop P max n (SearchSt.init P s) with
  | none => rw [hr] at h; exact absurd h (by simp)
  | some q =>
      obtain ⟨o', st⟩ := q
      obtain ⟨keys, h1, h2⟩ := runLoop_effort hP max n (SearchInv.init P s) h0 rfl hr
      rw [hr] at h
      refine ⟨keys, h1, ?_⟩
      cases o' with
      | none =>
          dsimp only at h
          rw [Option.some_inj, Prod.mk.injEq] at h
          rw [← h.2]; exact h2
      | some r =>
          dsimp only at h
          rw [Option.map_eq_some_iff] at h
          obtain ⟨_, _, h3⟩ := h
          rw [Prod.mk.injEq] at h3
          rw [← h3.2]; exact h2

/-- **C72**: the search finds a goal whenever there is one and the budget is large enough: if some sequence of legal moves leads
to a goal and fewer than `max` different nodes can be reached without being goals, then the search ends, and with a path. -/
theorem C72_finds (P : Problem ν κ K) (hP : NonnegCost P) (hC : KeyCong P) (s : ν) (max : ℕ)
    (hgoal : ∃ l t g, PathCost P l t ∧ l.head? = some s ∧ l.getLast? = some g ∧ P.goal g = true)
    (hfew : ∀ keys, ReachableKeys P s keys → keys.length < max) :
    ∃ n path it, ∀ m, n ≤ m → findSmoothPath P s max m = some (some path, it) := by
  obtain ⟨n, ⟨o, it⟩, hn⟩ := C53_terminates P hP s max
  obtain ⟨keys, h1, h2⟩ := C72_effort P hP s max n (hn n le_rfl)
  cases o with
  | some path => exact ⟨n, path, it, hn⟩
  | none =>
      have := C72_search_complete P hP hC s max n (hn n le_rfl) (by rw [← h2]; exact hfew keys h1)
      exact absurd hgoal this

end Global
end Avoidance
