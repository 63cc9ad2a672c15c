import Verif.GpSimplifyProps

/-!
# How far simplification goes (C54)
-/

namespace Avoidance
namespace Global

set_option linter.unusedSectionVars false

section
variable {K : Type*} [Field K] [LinearOrder K] [IsStrictOrderedRing K] [FloorRing K]

theorem loop_iterate (cost : Node → Node → Option K) (margin : K) : ∀ (n : ℕ) (l : List Cell),
    ∃ m ≤ n, simplifyLoop cost margin n l = (simplifyPass cost margin)^[m] l ∧
      (m = n ∨ simplifyPass cost margin (simplifyLoop cost margin n l) = simplifyLoop cost margin n l) := by
  intro n
  induction n with
  | zero => intro l; exact ⟨0, le_rfl, rfl, Or.inl rfl⟩
  | succ n ih =>
      intro l
      unfold simplifyLoop
      by_cases hl : (simplifyPass cost margin l).length = l.length
      · rw [if_pos hl]
        exact ⟨0, Nat.zero_le _, rfl, Or.inr ((simplifyPass_spec cost margin l).1.eq_of_length hl)⟩
      · rw [if_neg hl]
        obtain ⟨m, h1, h2, h3⟩ := ih (simplifyPass cost margin l)
        refine ⟨m + 1, by omega, by rw [h2, Function.iterate_succ_apply], ?_⟩
        rcases h3 with h3 | h3
        · exact Or.inl (by omega)
        · exact Or.inr h3

/-- **C54**: a path of at least three points is simplified by repeated passes (of `C54_removal_rule`): as many as permitted, or fewer if
there is nothing left to remove. In the second case no point of the result that a pass examines - every second one, with the last
point excepted - can be removed. -/
theorem C54_passes (cost : Node → Node → Option K) (path : List Cell) (margin maxIter : K) (h3 : 3 ≤ path.length) :
    ∃ n ≤ ⌈maxIter⌉₊, simplifyPath cost path margin maxIter false = (simplifyPass cost margin)^[n] path ∧
      (n = ⌈maxIter⌉₊ ∨ ∀ pre post a b c d, Even pre.length →
        simplifyPath cost path margin maxIter false = pre ++ a :: b :: c :: d :: post → TooCostly cost margin a b c d) := by
  have hdef : simplifyPath cost path margin maxIter false = simplifyLoop cost margin ⌈maxIter⌉₊ path := by
    unfold simplifyPath
    rw [if_neg (by omega)]
    rfl
  rw [hdef]
  obtain ⟨n, h1, h2, h4⟩ := loop_iterate cost margin ⌈maxIter⌉₊ path
  refine ⟨n, h1, h2, ?_⟩
  rcases h4 with h4 | h4
  · exact Or.inl h4
  · right
    intro pre post a b c d hpre he
    by_contra hno
    obtain ⟨A, B, _, hA, hB, _, hdrop⟩ := C54_removal_rule cost margin pre post a b c d hpre
    rw [he] at h4
    have := hdrop hno
    rw [h4] at this
    have hlen := congrArg List.length this
    have e1 := hA.length_le
    have e2 := hB.length_le
    simp only [List.length_append, List.length_cons, List.length_nil] at hlen e1
    omega

/-- non-vacuity: the second pass finds nothing to remove although ten passes are permitted -/
example : 3 ≤ [(⟨0,0,3⟩ : Cell), ⟨1,0,3⟩, ⟨2,0,3⟩, ⟨3,0,3⟩].length ∧
    simplifyPath exCost [⟨0,0,3⟩, ⟨1,0,3⟩, ⟨2,0,3⟩, ⟨3,0,3⟩] 1 10 false = [⟨0,0,3⟩, ⟨1,0,3⟩, ⟨3,0,3⟩] := by decide +kernel

end

end Global
end Avoidance
