import Verif.GpReplan
import Verif.GpHeurProps

/-!
# Repeated searches (C55)
-/

namespace Avoidance
namespace Global

set_option linter.unusedSectionVars false

section
variable {K : Type*} [Field K] [LinearOrder K] [IsStrictOrderedRing K] [FloorRing K]

/-- **Specification**: which searches are made. The `i`-th one uses the factor `1 + (max - 1) / 4^i`, which is at least the minimum; above
1.5 the cheap node type; it may use the iterations the earlier ones left over; and each but the last one found a path. -/
def Schedule (R : ReplanCfg K) (search : Search K) (maxIter : ℤ) (calls : List (Call K)) : Prop :=
  ∀ i c, calls[i]? = some c →
    c.factor = 1 + (R.maxFactor - 1) / 4 ^ i ∧ R.minFactor ≤ c.factor ∧
    c.kind = (if 3 / 2 < c.factor then .withoutSmooth else R.kind) ∧
    (c.budget : ℤ) = maxIter - (((calls.take i).map fun c => (search c).2).sum : ℕ) ∧ 0 < c.budget ∧
    (i + 1 < calls.length → (search c).1.isSome = true)

theorem schedule_snoc (R : ReplanCfg K) (search : Search K) (maxIter : ℤ) (calls : List (Call K)) (c : Call K)
    (h : Schedule R search maxIter calls) (hall : ∀ c ∈ calls, (search c).1.isSome = true)
    (h1 : c.factor = 1 + (R.maxFactor - 1) / 4 ^ calls.length) (h2 : R.minFactor ≤ c.factor)
    (h3 : c.kind = (if 3 / 2 < c.factor then .withoutSmooth else R.kind))
    (h4 : (c.budget : ℤ) = maxIter - ((calls.map fun c => (search c).2).sum : ℕ)) (h5 : 0 < c.budget) :
    Schedule R search maxIter (calls ++ [c]) := by
  intro i d hd
  rcases lt_trichotomy i calls.length with hi | hi | hi
  · rw [List.getElem?_append_left hi] at hd
    obtain ⟨a, b, e, f, g, _⟩ := h i d hd
    refine ⟨a, b, e, ?_, g, fun _ => hall d (List.mem_of_getElem? hd)⟩
    rw [f, List.take_append_of_le_length (le_of_lt hi)]
  · subst hi
    rw [List.getElem?_concat_length, Option.some.injEq] at hd
    subst hd
    refine ⟨h1, h2, h3, ?_, h5, fun hlt => ?_⟩
    · rw [h4, List.take_append_of_le_length (le_refl _), List.take_length]
    · rw [List.length_append, List.length_singleton] at hlt
      omega
  · rw [List.getElem?_eq_none_iff.mpr (by rw [List.length_append, List.length_singleton]; omega)] at hd
    exact absurd hd (by simp)

theorem replanLoop_spec (R : ReplanCfg K) (search : Search K) (maxIter : ℤ) :
    ∀ (n : ℕ) (factor : K) (left last : ℤ) (best : Option (List Cell)) (calls : List (Call K)) (r : Replanned K),
      0 ≤ last →
      factor = 1 + (R.maxFactor - 1) / 4 ^ calls.length → left = maxIter - ((calls.map fun c => (search c).2).sum : ℕ) →
      (∀ c ∈ calls, (search c).1.isSome = true) → best = (calls.filterMap fun c => (search c).1).getLast? →
      Schedule R search maxIter calls →
      replanLoop R search n factor left last best calls = some r →
      Schedule R search maxIter r.calls ∧ r.best = (r.calls.filterMap fun c => (search c).1).getLast? ∧
      (r.best = none → r.calls.length ≤ 1) := by
  intro n
  induction n with
  | zero => intro _ _ _ _ _ _ _ _ _ _ _ _ h; exact absurd h (by unfold replanLoop; simp)
  | succ n ih =>
      intro factor left last best calls r hlast hf hl hall hb hS h
      unfold replanLoop at h
      by_cases hc : R.minFactor ≤ factor ∧ last < left
      · rw [if_pos hc] at h
        dsimp only at h
        have hS' : Schedule R search maxIter (calls ++ [⟨factor, callKind R factor, left.toNat⟩]) := by
          refine schedule_snoc R search maxIter calls _ hS hall hf hc.1 rfl ?_ ?_
          · show ((left.toNat : ℕ) : ℤ) = _
            rw [← hl, Int.toNat_of_nonneg (by omega)]
          · show 0 < left.toNat
            omega
        rcases hs : search ⟨factor, callKind R factor, left.toNat⟩ with ⟨o, it⟩
        rw [hs] at h
        cases o with
        | none =>
            dsimp only at h
            rw [← Option.some_inj.mp h]
            refine ⟨hS', ?_, fun hn => ?_⟩
            · show best = _
              rw [List.filterMap_append, hb]
              simp [hs]
            · dsimp only at hn ⊢
              rw [hb, List.getLast?_eq_none_iff, List.filterMap_eq_nil_iff] at hn
              cases calls with
              | nil => simp
              | cons c t =>
                  have h1 := hn c (by simp)
                  have h2 := hall c (by simp)
                  rw [h1] at h2
                  exact absurd h2 (by simp)
        | some p =>
            dsimp only at h
            refine ih _ _ _ _ _ r (by omega) ?_ ?_ ?_ ?_ hS' h
            · rw [List.length_append, List.length_singleton, hf, pow_succ]
              field_simp
              ring
            · rw [List.map_append, List.sum_append, List.map_cons, List.map_nil, List.sum_cons, List.sum_nil, hs, hl]
              push_cast
              ring
            · intro c hc'
              rw [List.mem_append, List.mem_singleton] at hc'
              rcases hc' with hc' | rfl
              · exact hall c hc'
              · rw [hs]; rfl
            · rw [List.filterMap_append]
              simp [hs]
      · rw [if_neg hc] at h
        rw [← Option.some_inj.mp h]
        refine ⟨hS, hb, fun hn => ?_⟩
        dsimp only at hn ⊢
        rw [hb, List.getLast?_eq_none_iff, List.filterMap_eq_nil_iff] at hn
        cases calls with
        | nil => simp
        | cons c t =>
            have h1 := hn c (by simp)
            have h2 := hall c (by simp)
            rw [h1] at h2
            exact absurd h2 (by simp)

/-- **C55**: when the loop ends, the searches followed the schedule, the path it returns is that of the last search that found one, and
without a path at most one search was made. -/
theorem C55_schedule (R : ReplanCfg K) (search : Search K) (maxIter : ℤ) (n : ℕ) (r : Replanned K)
    (h : replan R search maxIter n = some r) :
    Schedule R search maxIter r.calls ∧ r.best = (r.calls.filterMap fun c => (search c).1).getLast? ∧
    (r.best = none → r.calls.length ≤ 1) := by
  refine replanLoop_spec R search maxIter n R.maxFactor maxIter 0 none [] r (le_refl _) ?_ ?_ ?_ rfl ?_ h
  · simp
  · simp
  · simp
  · intro i c hc
    simp at hc

/-- **C55**: if no single search exceeds the iterations it is allowed, all searches together stay within the configured number. -/
theorem C55_total_iterations (R : ReplanCfg K) (search : Search K) (hs : ∀ c, (search c).2 ≤ c.budget) (maxIter : ℤ) (hm : 0 ≤ maxIter)
    (n : ℕ) (r : Replanned K) (h : replan R search maxIter n = some r) :
    (((r.calls.map fun c => (search c).2).sum : ℕ) : ℤ) ≤ maxIter := by
  obtain ⟨hS, _, _⟩ := C55_schedule R search maxIter n r h
  rcases List.eq_nil_or_concat r.calls with he | ⟨l, c, he⟩
  · rw [he]; simpa using hm
  · rw [List.concat_eq_append] at he
    rw [he] at hS ⊢
    obtain ⟨_, _, _, hb, _, _⟩ := hS l.length c (by simp)
    rw [List.take_append_of_le_length (le_refl _), List.take_length] at hb
    have := hs c
    rw [List.map_append, List.sum_append]
    simp only [List.map_cons, List.map_nil, List.sum_cons, List.sum_nil, add_zero]
    push_cast at hb ⊢
    omega

theorem replanLoop_ends_factor (R : ReplanCfg K) (search : Search K) (hmin : 1 < R.minFactor) :
    ∀ (d : ℕ) (factor : K) (left last : ℤ) (best : Option (List Cell)) (calls : List (Call K)),
      factor - 1 < (R.minFactor - 1) * 4 ^ d → ∃ r, ∀ m, d + 1 ≤ m → replanLoop R search m factor left last best calls = some r := by
  intro d
  induction d with
  | zero =>
      intro factor left last best calls h
      rw [pow_zero, mul_one] at h
      refine ⟨⟨factor, best, calls⟩, fun m hm => ?_⟩
      obtain ⟨m', rfl⟩ : ∃ m', m = m' + 1 := ⟨m - 1, by omega⟩
      unfold replanLoop
      rw [if_neg (fun hc => by linarith [hc.1])]
  | succ d ih =>
      intro factor left last best calls h
      by_cases hc : R.minFactor ≤ factor ∧ last < left
      · rcases hs : search ⟨factor, callKind R factor, left.toNat⟩ with ⟨o, it⟩
        cases o with
        | none =>
            refine ⟨⟨factor, best, calls ++ [⟨factor, callKind R factor, left.toNat⟩]⟩, fun m hm => ?_⟩
            obtain ⟨m', rfl⟩ : ∃ m', m = m' + 1 := ⟨m - 1, by omega⟩
            unfold replanLoop
            rw [if_pos hc]
            dsimp only
            rw [hs]
        | some p =>
            obtain ⟨r, hr⟩ := ih ((factor - 1) / 4 + 1) (left - it) it (some p) (calls ++ [⟨factor, callKind R factor, left.toNat⟩]) (by
              rw [pow_succ] at h
              have : (factor - 1) / 4 < (R.minFactor - 1) * 4 ^ d := by
                rw [div_lt_iff₀ (by norm_num)]
                linarith
              linarith)
            refine ⟨r, fun m hm => ?_⟩
            obtain ⟨m', rfl⟩ : ∃ m', m = m' + 1 := ⟨m - 1, by omega⟩
            unfold replanLoop
            rw [if_pos hc]
            dsimp only
            rw [hs]
            exact hr m' (by omega)
      · refine ⟨⟨factor, best, calls⟩, fun m hm => ?_⟩
        obtain ⟨m', rfl⟩ : ∃ m', m = m' + 1 := ⟨m - 1, by omega⟩
        unfold replanLoop
        rw [if_neg hc]

theorem replanLoop_ends_iter (R : ReplanCfg K) (search : Search K) (hs1 : ∀ c, (search c).1.isSome = true → 1 ≤ (search c).2) :
    ∀ (d : ℕ) (factor : K) (left last : ℤ) (best : Option (List Cell)) (calls : List (Call K)),
      0 ≤ last → left ≤ d → ∃ r, ∀ m, d + 1 ≤ m → replanLoop R search m factor left last best calls = some r := by
  intro d
  induction d with
  | zero =>
      intro factor left last best calls h0 h
      refine ⟨⟨factor, best, calls⟩, fun m hm => ?_⟩
      obtain ⟨m', rfl⟩ : ∃ m', m = m' + 1 := ⟨m - 1, by omega⟩
      unfold replanLoop
      rw [if_neg (fun hc => by push_cast at h; omega)]
  | succ d ih =>
      intro factor left last best calls h0 h
      by_cases hc : R.minFactor ≤ factor ∧ last < left
      · rcases hs : search ⟨factor, callKind R factor, left.toNat⟩ with ⟨o, it⟩
        cases o with
        | none =>
            refine ⟨⟨factor, best, calls ++ [⟨factor, callKind R factor, left.toNat⟩]⟩, fun m hm => ?_⟩
            obtain ⟨m', rfl⟩ : ∃ m', m = m' + 1 := ⟨m - 1, by omega⟩
            unfold replanLoop
            rw [if_pos hc]
            dsimp only
            rw [hs]
        | some p =>
            have hit : 1 ≤ it := by
              have := hs1 ⟨factor, callKind R factor, left.toNat⟩ (by rw [hs]; rfl)
              rwa [hs] at this
            obtain ⟨r, hr⟩ := ih ((factor - 1) / 4 + 1) (left - it) it (some p) (calls ++ [⟨factor, callKind R factor, left.toNat⟩])
              (by omega) (by push_cast at h; omega)
            refine ⟨r, fun m hm => ?_⟩
            obtain ⟨m', rfl⟩ : ∃ m', m = m' + 1 := ⟨m - 1, by omega⟩
            unfold replanLoop
            rw [if_pos hc]
            dsimp only
            rw [hs]
            exact hr m' (by omega)
      · refine ⟨⟨factor, best, calls⟩, fun m hm => ?_⟩
        obtain ⟨m', rfl⟩ : ∃ m', m = m' + 1 := ⟨m - 1, by omega⟩
        unfold replanLoop
        rw [if_neg hc]

/-- **C55**: the repeated searches end, whatever they find, if the minimum factor exceeds 1 - and for every minimum factor, if a search
that finds a path uses at least one iteration (that is, if it does not start inside the goal). -/
theorem C55_terminates (R : ReplanCfg ℝ) (search : Search ℝ) (maxIter : ℤ)
    (h : 1 < R.minFactor ∨ ∀ c, (search c).1.isSome = true → 1 ≤ (search c).2) :
    ∃ n r, ∀ m, n ≤ m → replan R search maxIter m = some r := by
  rcases h with h | h
  · obtain ⟨d, hd⟩ := pow_unbounded_of_one_lt ((R.maxFactor - 1) / (R.minFactor - 1)) (by norm_num : (1 : ℝ) < 4)
    obtain ⟨r, hr⟩ := replanLoop_ends_factor R search h d R.maxFactor maxIter 0 none [] (by
      rw [div_lt_iff₀ (by linarith)] at hd
      linarith)
    exact ⟨d + 1, r, hr⟩
  · obtain ⟨r, hr⟩ := replanLoop_ends_iter R search h maxIter.toNat R.maxFactor maxIter 0 none [] (le_refl _) (Int.self_le_toNat _)
    exact ⟨_, r, hr⟩

/-- **C55** (violated): with a minimum factor of 1 - the configuration permits it - and a search that needs no iteration, the loop never
ends. -/
theorem C55_minimum_one_hangs_violated (R : ReplanCfg K) (search : Search K) (hmin : R.minFactor ≤ 1) (hmax : 1 ≤ R.maxFactor)
    (hs : ∀ c, 0 < c.budget → (search c).1.isSome = true ∧ (search c).2 = 0) (maxIter : ℤ) (hm : 0 < maxIter) (n : ℕ) :
    replan R search maxIter n = none := by
  have key : ∀ (n : ℕ) (factor : K) (best : Option (List Cell)) (calls : List (Call K)), 1 ≤ factor →
      replanLoop R search n factor maxIter 0 best calls = none := by
    intro n
    induction n with
    | zero => intros; rfl
    | succ n ih =>
        intro factor best calls hf
        unfold replanLoop
        rw [if_pos ⟨le_trans hmin hf, hm⟩]
        dsimp only
        obtain ⟨h1, h2⟩ := hs ⟨factor, callKind R factor, maxIter.toNat⟩ (by show 0 < maxIter.toNat; omega)
        rcases hq : search ⟨factor, callKind R factor, maxIter.toNat⟩ with ⟨o, it⟩
        rw [hq] at h1 h2
        cases o with
        | none => exact absurd h1 (by simp)
        | some p =>
            dsimp only at h2 ⊢
            subst h2
            simp only [Nat.cast_zero, sub_zero]
            exact ih _ _ _ (by linarith [div_nonneg (sub_nonneg.mpr hf) (by norm_num : (0 : K) ≤ 4)])
  exact key n _ _ _ hmax

/-- **C55**: what `findPath` returns: the path of the last successful search with `max_iterations_` unchanged, or, if there is none,
the last resort - and then `max_iterations_` is 5000 from now on, whatever was configured. -/
theorem C55_result (R : ReplanCfg K) (search : Search K) (fallback : ℤ → Option (List Cell)) (maxIter : ℤ) (n : ℕ) (f : Found K)
    (h : findPath R search fallback maxIter n = some f) :
    ∃ r, replan R search maxIter n = some r ∧ f.factor = r.factor ∧
      ((∃ p, (r.calls.filterMap fun c => (search c).1).getLast? = some p ∧ f.path = some p ∧ f.maxIter = maxIter) ∨
       ((r.calls.filterMap fun c => (search c).1) = [] ∧ r.calls.length ≤ 1 ∧ f.path = fallback 5000 ∧ f.maxIter = 5000)) := by
  unfold findPath at h
  cases hr : replan R search maxIter n with
  | none => rw [hr] at h; exact absurd h (by simp)
  | some r =>
      rw [hr] at h
      dsimp only at h
      obtain ⟨_, hb, hl⟩ := C55_schedule R search maxIter n r hr
      cases hbest : r.best with
      | some p =>
          rw [hbest] at h
          dsimp only at h
          rw [← Option.some_inj.mp h]
          exact ⟨r, rfl, rfl, Or.inl ⟨p, by rw [← hb, hbest], rfl, rfl⟩⟩
      | none =>
          rw [hbest] at h
          dsimp only at h
          rw [← Option.some_inj.mp h]
          refine ⟨r, rfl, rfl, Or.inr ⟨?_, hl hbest, rfl, rfl⟩⟩
          rw [hbest] at hb
          exact List.getLast?_eq_none_iff.mp hb.symm

/-- with a maximum factor below the minimum, or no iterations, no search is made at all -/
theorem C55_no_search_violated (R : ReplanCfg K) (search : Search K) (maxIter : ℤ) (n : ℕ) (fallback : ℤ → Option (List Cell))
    (h : R.maxFactor < R.minFactor ∨ maxIter ≤ 0) :
    findPath R search fallback maxIter (n + 1) = some ⟨R.maxFactor, 5000, fallback 5000⟩ := by
  unfold findPath replan replanLoop
  rw [if_neg]
  rintro ⟨h1, h2⟩
  rcases h with h | h
  · exact absurd h1 (not_le.mpr h)
  · omega

/-- an example: the shipped factors, 2000 iterations, searches taking 100, 200 and 300 iterations -/
def exReplan : ReplanCfg ℚ := ⟨103 / 100, 2, .speed⟩
def exSearch : Search ℚ := fun c => (some [⟨0, 0, 3⟩, ⟨c.budget, 0, 3⟩], if 3 / 2 < c.factor then 100 else if 1.1 < c.factor then 200 else 300)

example : replan exReplan exSearch 2000 4 = some ⟨65 / 64, some [⟨0, 0, 3⟩, ⟨1700, 0, 3⟩],
    [⟨2, .withoutSmooth, 2000⟩, ⟨5 / 4, .speed, 1900⟩, ⟨17 / 16, .speed, 1700⟩]⟩ := by decide +kernel
example : 1 < exReplan.minFactor := by decide +kernel
/-- the second search fails: the first path is kept -/
example : findPath exReplan (fun c => if 3 / 2 < c.factor then (some [⟨1, 1, 3⟩], 100) else (none, c.budget)) (fun _ => none) 2000 4 =
    some ⟨5 / 4, 2000, some [⟨1, 1, 3⟩]⟩ := by decide +kernel
/-- nothing found: last resort and 5000 iterations -/
example : findPath exReplan (fun c => (none, c.budget)) (fun m => if m = 5000 then some [⟨7, 7, 7⟩] else none) 2000 4 =
    some ⟨2, 5000, some [⟨7, 7, 7⟩]⟩ := by decide +kernel

end

/-! ## With the search of the planner -/

section
variable {ν κ K : Type*} [DecidableEq κ] [Field K] [LinearOrder K] [IsStrictOrderedRing K] [FloorRing K]

/-- a search that starts inside the goal succeeds at once, without an iteration -/
theorem findSmooth_start_in_goal (P : Problem ν κ K) (s : ν) (hg : P.goal s = true) (max n : ℕ) (hm : 0 < max) :
    findSmoothPath P s max (n + 1) = some (some [s], 0) := by
  have h1 : iterateOnce P max (SearchSt.init P s) = .found (s, true) { SearchSt.init P s with pq := [], seen := [P.key s] } := by
    unfold iterateOnce SearchSt.init
    rw [if_pos hm]
    have hp : popTop P [((s, true), (0 : K))] = some (((s, true), 0), []) := by
      unfold popTop
      simp [Nat.mod_one]
    rw [hp]
    dsimp only
    rw [if_neg (by simp), if_pos hg]
  unfold findSmoothPath runLoop
  rw [h1]
  dsimp only
  unfold walkBack
  rw [if_pos rfl]
  rfl

/-- iterations are only counted up -/
theorem runLoop_iter_mono (P : Problem ν κ K) (max n : ℕ) (st : SearchSt ν κ K) {o} {st'}
    (h : runLoop P max n st = some (o, st')) : st.iter ≤ st'.iter := by
  induction n generalizing st with
  | zero => exact absurd h (by unfold runLoop; simp)
  | succ n ih =>
      unfold runLoop at h
      cases hit : iterateOnce P max st with
      | running st1 =>
          rw [hit] at h
          have := ih st1 h
          rcases iterateOnce_progress P max st st1 hit with h' | h' <;> omega
      | found r st1 =>
          rw [hit] at h
          dsimp only at h
          rw [Option.some_inj, Prod.mk.injEq] at h
          rw [← h.2]
          unfold iterateOnce at hit
          split at hit
          · split at hit
            · exact absurd hit (by simp)
            · split at hit
              · exact absurd hit (by simp)
              · split at hit
                · injection hit with _ h2
                  rw [← h2]
                · exact absurd hit (by simp)
          · exact absurd hit (by simp)
      | stopped st1 =>
          rw [hit] at h
          dsimp only at h
          rw [Option.some_inj, Prod.mk.injEq] at h
          rw [← h.2]
          unfold iterateOnce at hit
          split at hit
          · split at hit
            · injection hit with h2
              rw [← h2]
            · split at hit
              · exact absurd hit (by simp)
              · split at hit
                · exact absurd hit (by simp)
                · exact absurd hit (by simp)
          · injection hit with h2
            rw [← h2]

/-- a search that starts outside the goal and succeeds takes at least one iteration -/
theorem findSmooth_start_outside (P : Problem ν κ K) (s : ν) (hg : P.goal s = false) (max n : ℕ) {l : List ν} {it : ℕ}
    (h : findSmoothPath P s max n = some (some l, it)) : 1 ≤ it := by
  unfold findSmoothPath at h
  cases hr : runLoop P max n (SearchSt.init P s) with
  | none => rw [hr] at h; exact absurd h (by simp)
  | some q =>
      obtain ⟨o, st⟩ := q
      rw [hr] at h
      cases o with
      | none =>
          dsimp only at h
          rw [Option.some_inj, Prod.mk.injEq] at h
          exact absurd h.1 (by simp)
      | some r =>
          dsimp only at h
          rw [Option.map_eq_some_iff] at h
          obtain ⟨b, _, hb⟩ := h
          rw [Prod.mk.injEq] at hb
          rw [← hb.2]
          cases n with
          | zero => exact absurd hr (by unfold runLoop; simp)
          | succ n =>
              unfold runLoop at hr
              by_cases hm : 0 < max
              · have h1 : iterateOnce P max (SearchSt.init P s) =
                    .running (expand P (s, true) { SearchSt.init P s with pq := [], seen := [P.key s], iter := 1 }) := by
                  unfold iterateOnce SearchSt.init
                  rw [if_pos hm]
                  have hp : popTop P [((s, true), (0 : K))] = some (((s, true), 0), []) := by
                    unfold popTop
                    simp [Nat.mod_one]
                  rw [hp]
                  dsimp only
                  rw [if_neg (by simp), if_neg (by rw [hg]; simp)]
                rw [h1] at hr
                dsimp only at hr
                have h2 := runLoop_iter_mono P max n _ hr
                rw [(expand_frame P (s, true) _).1] at h2
                exact h2
              · have h1 : iterateOnce P max (SearchSt.init P s) = .stopped (SearchSt.init P s) := by
                  unfold iterateOnce
                  rw [if_neg (by show ¬ 0 < max; exact hm)]
                rw [h1] at hr
                dsimp only at hr
                rw [Option.some_inj, Prod.mk.injEq] at hr
                exact absurd hr.1 (by simp)

end

section
variable (radius : ℝ) (W : RiskWorld ℝ) (C : CostCfg) (early : Cell → Bool) (t : GoalCell ℝ) (H : HeurCfg)
  (pick : List ((Node × Bool) × ℝ) → ℕ)

/-- The problem of one call: global_planner.cpp 450-451 with the heuristic of the current factor. -/
noncomputable def callProblem (c : Call ℝ) : Problem Node (Cell × Option Cell) ℝ :=
  plannerProblem 1 radius W C early c.kind t (fun hist v => (getHeuristic 1 W C { H with overestimate := c.factor } t.cell hist v).getD 0) pick

/-- The searches are those of the planner (`findSmoothPath`, with the path it fills: search_tools.h 183-191). -/
def IsPlannerSearch (s : Node) (search : Search ℝ) : Prop :=
  ∀ c, ∃ n o it, findSmoothPath (callProblem radius W C early t H pick c) s c.budget n = some (o, it) ∧
    search c = (o.map (pathCells s), it)

theorem plannerSearch_exists (hW : GoodWorld W) (hC : GoodCost C) (s : Node) : ∃ search, IsPlannerSearch radius W C early t H pick s search := by
  have h : ∀ c : Call ℝ, ∃ p : Option (List Cell) × ℕ, ∃ n o it,
      findSmoothPath (callProblem radius W C early t H pick c) s c.budget n = some (o, it) ∧ p = (o.map (pathCells s), it) := by
    intro c
    obtain ⟨n, ⟨o, it⟩, hr⟩ := C53_terminates (callProblem radius W C early t H pick c)
      (planner_nonneg 1 radius W C early c.kind t _ pick hW hC) s c.budget
    exact ⟨_, n, o, it, hr n (le_refl _), rfl⟩
  choose f hf using h
  exact ⟨f, hf⟩

/-- **C55**, for the planner: all searches together use at most the configured number of iterations, and a path that comes from the loop
starts with the parent of the start cell and the start cell, ends inside the goal, and all its steps are legal moves of one of the node
types used. -/
theorem C55_planner_path (hW : GoodWorld W) (hC : GoodCost C) (R : ReplanCfg ℝ) (s : Node) (search : Search ℝ)
    (hsearch : IsPlannerSearch radius W C early t H pick s search) (maxIter : ℤ) (hm : 0 ≤ maxIter) (n : ℕ) (r : Replanned ℝ)
    (h : replan R search maxIter n = some r) :
    (((r.calls.map fun c => (search c).2).sum : ℕ) : ℤ) ≤ maxIter ∧
    ∀ p, r.best = some p → ∃ c ∈ r.calls, ∃ l cost g, p = s.parent :: l.map Node.cell ∧
      PathCost (callProblem radius W C early t H pick c) l cost ∧ l.head? = some s ∧ l.getLast? = some g ∧ t.withinPlan 1 g.cell := by
  constructor
  · refine C55_total_iterations R search (fun c => ?_) maxIter hm n r h
    obtain ⟨k, o, it, h1, h2⟩ := hsearch c
    rw [h2]
    exact C53_iterations _ s c.budget k h1
  · intro p hp
    obtain ⟨_, hb, _⟩ := C55_schedule R search maxIter n r h
    rw [hp] at hb
    have hmem := List.mem_of_getLast? hb.symm
    rw [List.mem_filterMap] at hmem
    obtain ⟨c, hc, hcp⟩ := hmem
    obtain ⟨k, o, it, h1, h2⟩ := hsearch c
    rw [h2] at hcp
    cases o with
    | none => exact absurd hcp (by simp)
    | some l =>
        obtain ⟨⟨cost, g1⟩, g2, ⟨g, g3, g4⟩, _⟩ := C53_path_legal _ (planner_nonneg 1 radius W C early c.kind t _ pick hW hC) s c.budget k h1
        refine ⟨c, hc, l, cost, g, ?_, g1, g2, g3, of_decide_eq_true g4⟩
        have : some (pathCells s l) = some p := hcp
        rw [← Option.some_inj.mp this]
        rfl

/-- **C55** (violated), for the planner: with a minimum factor of 1 and the start cell inside the goal - the vehicle hovers at its goal -
planning never ends, for every map and configuration. -/
theorem C55_hover_at_goal_hangs_violated (R : ReplanCfg ℝ) (hmin : R.minFactor ≤ 1) (hmax : 1 ≤ R.maxFactor) (s : Node)
    (hs : t.withinPlan 1 s.cell) (search : Search ℝ) (hsearch : IsPlannerSearch radius W C early t H pick s search)
    (maxIter : ℤ) (hm : 0 < maxIter) (n : ℕ) : replan R search maxIter n = none := by
  refine C55_minimum_one_hangs_violated R search hmin hmax (fun c hc => ?_) maxIter hm n
  obtain ⟨k, o, it, h1, h2⟩ := hsearch c
  cases k with
  | zero =>
      exact absurd h1 (by unfold findSmoothPath runLoop; simp)
  | succ k =>
      have h3 := findSmooth_start_in_goal (callProblem radius W C early t H pick c) s
        (by show decide (t.withinPlan 1 s.cell) = true; exact decide_eq_true hs) c.budget k hc
      rw [h3, Option.some.injEq, Prod.mk.injEq] at h1
      rw [h2, ← h1.1, ← h1.2]
      exact ⟨rfl, rfl⟩

/-- **C55**: away from the goal (its cell not within the goal) every search that succeeds takes an iteration, so planning ends for every
configuration. -/
theorem C55_planner_terminates (R : ReplanCfg ℝ) (s : Node) (search : Search ℝ)
    (hsearch : IsPlannerSearch radius W C early t H pick s search) (maxIter : ℤ)
    (h : 1 < R.minFactor ∨ ¬ t.withinPlan 1 s.cell) : ∃ n r, ∀ m, n ≤ m → replan R search maxIter m = some r := by
  refine C55_terminates R search maxIter (h.imp_right fun hs => ?_)
  intro c hc
  obtain ⟨k, o, it, h1, h2⟩ := hsearch c
  rw [h2] at hc ⊢
  cases o with
  | none => exact absurd hc (by simp)
  | some l =>
      exact findSmooth_start_outside _ s (by show decide (t.withinPlan 1 s.cell) = false; exact decide_eq_false hs) c.budget k h1
end

end Global
end Avoidance
