import Verif.GpReplanProps

/-!
# When the repeated searches stop (C55)
-/

namespace Avoidance
namespace Global

set_option linter.unusedSectionVars false

section
variable {K : Type*} [Field K] [LinearOrder K] [IsStrictOrderedRing K] [FloorRing K]

/-! ## Specification -/

/-- The iterations of the last search made (0 if there was none). -/
def lastIter (search : Search K) (calls : List (Call K)) : ℤ := ((calls.getLast?.map fun c => (search c).2).getD 0 : ℕ)

/-- The iterations of all searches together. -/
def usedIter (search : Search K) (calls : List (Call K)) : ℤ := ((calls.map fun c => (search c).2).sum : ℕ)

/-- The reasons for which searching may end: the last search failed; or all succeeded and the next factor is below the minimum, or
no more iterations are left than the last search has used. -/
def StopsBecause (R : ReplanCfg K) (search : Search K) (maxIter : ℤ) (calls : List (Call K)) (factor : K) : Prop :=
  (∃ c, calls.getLast? = some c ∧ (search c).1 = none ∧ factor = c.factor) ∨
  ((∀ c ∈ calls, (search c).1.isSome = true) ∧ factor = 1 + (R.maxFactor - 1) / 4 ^ calls.length ∧
    (factor < R.minFactor ∨ maxIter - usedIter search calls ≤ lastIter search calls))

/-- Every further search is given more iterations than the one before has used. -/
def Affordable (search : Search K) (calls : List (Call K)) : Prop :=
  ∀ (i : ℕ) c c', calls[i]? = some c → calls[i + 1]? = some c' → (search c).2 < c'.budget

/-! ## Proofs -/

theorem affordable_snoc {search : Search K} {calls : List (Call K)} {c : Call K} (h : Affordable search calls)
    (hc : lastIter search calls < c.budget) : Affordable search (calls ++ [c]) := by
  intro i a b ha hb
  rcases lt_or_ge (i + 1) calls.length with hi | hi
  · rw [List.getElem?_append_left (by omega)] at ha
    rw [List.getElem?_append_left hi] at hb
    exact h i a b ha hb
  · have hlt : i + 1 < (calls ++ [c]).length := by
      by_contra hge
      rw [List.getElem?_eq_none (by omega)] at hb
      exact absurd hb (by simp)
    rw [List.length_append, List.length_singleton] at hlt
    have hi' : i + 1 = calls.length := by omega
    rw [hi', List.getElem?_concat_length, Option.some_inj] at hb
    subst hb
    rw [List.getElem?_append_left (by omega)] at ha
    unfold lastIter at hc
    have : calls.getLast? = some a := by
      rw [List.getLast?_eq_getElem?, ← hi', Nat.add_sub_cancel, ha]
    rw [this] at hc
    exact_mod_cast hc

theorem replanLoop_stops (R : ReplanCfg K) (search : Search K) (maxIter : ℤ) :
    ∀ (n : ℕ) (factor : K) (left last : ℤ) (best : Option (List Cell)) (calls : List (Call K)) (r : Replanned K),
      last = lastIter search calls →
      factor = 1 + (R.maxFactor - 1) / 4 ^ calls.length → left = maxIter - usedIter search calls →
      (∀ c ∈ calls, (search c).1.isSome = true) → Affordable search calls →
      replanLoop R search n factor left last best calls = some r →
      StopsBecause R search maxIter r.calls r.factor ∧ Affordable search r.calls ∧ calls <+: r.calls := by
  intro n
  induction n with
  | zero => intro _ _ _ _ _ _ _ _ _ _ _ h; exact absurd h (by unfold replanLoop; simp)
  | succ n ih =>
      intro factor left last best calls r hlast hf hl hall hA h
      unfold replanLoop at h
      by_cases hc : R.minFactor ≤ factor ∧ last < left
      · rw [if_pos hc] at h
        dsimp only at h
        have hA' : Affordable search (calls ++ [⟨factor, callKind R factor, left.toNat⟩]) :=
          affordable_snoc hA (by rw [← hlast]; show last < ((left.toNat : ℕ) : ℤ); omega)
        rcases hs : search ⟨factor, callKind R factor, left.toNat⟩ with ⟨o, it⟩
        rw [hs] at h
        cases o with
        | none =>
            dsimp only at h
            rw [← Option.some_inj.mp h]
            exact ⟨Or.inl ⟨⟨factor, callKind R factor, left.toNat⟩, by dsimp only; rw [List.getLast?_append]; rfl, by rw [hs], rfl⟩, hA', List.prefix_append _ _⟩
        | some p =>
            dsimp only at h
            have e1 : (it : ℤ) = lastIter search (calls ++ [⟨factor, callKind R factor, left.toNat⟩]) := by
              unfold lastIter
              rw [List.getLast?_append]
              simp [hs]
            have e2 : (factor - 1) / 4 + 1 = 1 + (R.maxFactor - 1) / 4 ^ (calls ++ [(⟨factor, callKind R factor, left.toNat⟩ : Call K)]).length := by
              rw [List.length_append, List.length_singleton, hf, pow_succ]
              field_simp
              ring
            have e3 : left - (it : ℤ) = maxIter - usedIter search (calls ++ [⟨factor, callKind R factor, left.toNat⟩]) := by
              unfold usedIter at hl ⊢
              rw [List.map_append, List.sum_append, List.map_cons, List.map_nil, List.sum_cons, List.sum_nil, hs, hl]
              push_cast
              ring
            have e4 : ∀ c ∈ calls ++ [(⟨factor, callKind R factor, left.toNat⟩ : Call K)], (search c).1.isSome = true := by
              intro c hc'
              rw [List.mem_append, List.mem_singleton] at hc'
              rcases hc' with hc' | rfl
              · exact hall c hc'
              · rw [hs]; rfl
            obtain ⟨h1, h2, h3⟩ := ih _ _ _ _ _ r e1 e2 e3 e4 hA' h
            exact ⟨h1, h2, (List.prefix_append _ _).trans h3⟩
      · rw [if_neg hc] at h
        rw [← Option.some_inj.mp h]
        refine ⟨Or.inr ⟨hall, hf, ?_⟩, hA, List.prefix_rfl⟩
        dsimp only
        rw [not_and_or, not_le, not_lt] at hc
        rcases hc with hc | hc
        · exact Or.inl hc
        · right; rw [← hl, ← hlast]; exact hc

/-- **C55**: searching goes on as long as it may. It ends only because a search failed, because the next factor would be below the
minimum, or because no more iterations are left than the last search has used; and every search after the first was given more
iterations than the one before has used. The factor left behind is that of the failed search, or the next one of the schedule. -/
theorem C55_stops (R : ReplanCfg K) (search : Search K) (maxIter : ℤ) (n : ℕ) (r : Replanned K)
    (h : replan R search maxIter n = some r) :
    StopsBecause R search maxIter r.calls r.factor ∧ Affordable search r.calls := by
  obtain ⟨h1, h2, _⟩ := replanLoop_stops R search maxIter n R.maxFactor maxIter 0 none [] r rfl (by simp) (by simp [usedIter])
    (by simp) (by intro i c c' hc; simp at hc) h
  exact ⟨h1, h2⟩

/-- **C55**: a search is made whenever the configuration admits one. -/
theorem C55_searches (R : ReplanCfg K) (search : Search K) (maxIter : ℤ) (n : ℕ) (r : Replanned K)
    (h : replan R search maxIter n = some r) (h1 : R.minFactor ≤ R.maxFactor) (h2 : 0 < maxIter) : r.calls ≠ [] := by
  intro hnil
  obtain ⟨hs, _⟩ := C55_stops R search maxIter n r h
  rw [hnil] at hs
  rcases hs with ⟨c, hc, _⟩ | ⟨_, hf, hs | hs⟩
  · exact absurd hc (by simp)
  · rw [hf] at hs
    simp only [List.length_nil, pow_zero, div_one, add_sub_cancel] at hs
    exact absurd hs (not_lt.mpr h1)
  · simp [usedIter, lastIter] at hs
    omega

/-- **C55**: the search starts in the cell that contains the position the vehicle will have after the time reserved for searching, coming
from the cell that contains the position that time before, if it keeps its velocity. -/
theorem C55_start (sc : K) (hs : 0 < sc) (pos vel : V3 K) (searchTime : K) :
    InBox sc (startNode sc pos vel searchTime).cell ⟨pos.x + searchTime * vel.x, pos.y + searchTime * vel.y, pos.z + searchTime * vel.z⟩ ∧
    InBox sc (startNode sc pos vel searchTime).parent ⟨pos.x - searchTime * vel.x, pos.y - searchTime * vel.y, pos.z - searchTime * vel.z⟩ :=
  ⟨(C52_cell_unique sc hs _ _).mp rfl, (C52_cell_unique sc hs _ _).mp rfl⟩

end

/-! ## Non-vacuity -/

/-- three searches: two succeed, the third fails -/
example : (replan (K := ℚ) ⟨103/100, 2, .node⟩ (fun c => if c.factor < 11/10 then (none, 7) else (some [], 3)) 100 10).map
    (fun r => (r.calls.length, r.factor)) = some (3, 17/16) := by
  decide +kernel

end Global
end Avoidance
