import Verif.GpSimplify
import Verif.GpEdgeProps

/-!
# Path simplification (C54)
-/

namespace Avoidance
namespace Global

set_option linter.unusedSectionVars false

section
variable {K : Type*} [Field K] [LinearOrder K] [IsStrictOrderedRing K] [FloorRing K]

theorem simplifyAux_sublist (cost : Node → Node → Option K) (margin : K) : ∀ (l : List Cell) (a b : Cell),
    (simplifyAux cost margin a b l).Sublist l
  | [], _, _ => by unfold simplifyAux; exact List.Sublist.refl _
  | [c], _, _ => by unfold simplifyAux; exact List.Sublist.refl _
  | c :: d :: rest, a, b => by
      unfold simplifyAux
      have ih := simplifyAux_sublist cost margin rest c d
      split
      · exact (ih.cons₂ d).cons₂ c
      · exact (ih.cons₂ d).cons c

theorem simplifyAux_last (cost : Node → Node → Option K) (margin : K) : ∀ (l : List Cell) (a b : Cell),
    (simplifyAux cost margin a b l).getLast? = l.getLast?
  | [], _, _ => by unfold simplifyAux; rfl
  | [c], _, _ => by unfold simplifyAux; rfl
  | c :: d :: rest, a, b => by
      unfold simplifyAux
      have ih := simplifyAux_last cost margin rest c d
      have e : ∀ (x : Cell) (l : List Cell), (x :: l).getLast? = some (l.getLast?.getD x) := by
        intro x l
        cases l with
        | nil => rfl
        | cons y l => rw [List.getLast?_cons]
      split
      · rw [e, e, e, e, ih]
      · rw [e c, e d, e d, ih, Option.getD_some]

theorem simplifyPass_spec (cost : Node → Node → Option K) (margin : K) (l : List Cell) :
    (simplifyPass cost margin l).Sublist l ∧ (simplifyPass cost margin l).take 2 = l.take 2 ∧
      (simplifyPass cost margin l).getLast? = l.getLast? := by
  unfold simplifyPass
  match l with
  | [] => exact ⟨List.Sublist.refl _, rfl, rfl⟩
  | [a] => exact ⟨List.Sublist.refl _, rfl, rfl⟩
  | a :: b :: rest =>
      refine ⟨((simplifyAux_sublist cost margin rest a b).cons₂ b).cons₂ a, rfl, ?_⟩
      dsimp only
      rw [List.getLast?_cons_cons, List.getLast?_cons_cons, List.getLast?_cons, List.getLast?_cons, simplifyAux_last]

theorem simplifyLoop_spec (cost : Node → Node → Option K) (margin : K) (n : ℕ) : ∀ l : List Cell,
    (simplifyLoop cost margin n l).Sublist l ∧ (simplifyLoop cost margin n l).take 2 = l.take 2 ∧
      (simplifyLoop cost margin n l).getLast? = l.getLast? := by
  induction n with
  | zero => intro l; exact ⟨List.Sublist.refl _, rfl, rfl⟩
  | succ n ih =>
      intro l
      unfold simplifyLoop
      obtain ⟨h1, h2, h3⟩ := simplifyPass_spec cost margin l
      split
      · exact ⟨List.Sublist.refl _, rfl, rfl⟩
      · obtain ⟨i1, i2, i3⟩ := ih (simplifyPass cost margin l)
        exact ⟨i1.trans h1, i2.trans h2, i3.trans h3⟩

/-- **C54**: the simplified path consists of points of the given path in the same order; its first two points and its last point
are those of the given path; with `decelerate` the last point is repeated once, except that a path of fewer than three points
is returned as it is. For every cost function, margin and number of iterations. -/
theorem C54_endpoints_and_order (cost : Node → Node → Option K) (path : List Cell) (margin maxIter : K) (dec : Bool) :
    ∃ l : List Cell, l.Sublist path ∧ l.take 2 = path.take 2 ∧ l.getLast? = path.getLast? ∧
      simplifyPath cost path margin maxIter dec =
        if dec = true ∧ 3 ≤ path.length then l ++ path.getLast?.toList else l := by
  unfold simplifyPath
  by_cases h3 : path.length < 3
  · refine ⟨path, List.Sublist.refl _, rfl, rfl, ?_⟩
    rw [if_pos h3, if_neg (by omega)]
  · obtain ⟨h1, h2, h4⟩ := simplifyLoop_spec cost margin ⌈maxIter⌉₊ path
    refine ⟨simplifyLoop cost margin ⌈maxIter⌉₊ path, h1, h2, h4, ?_⟩
    rw [if_neg h3]
    dsimp only
    by_cases hd : dec = true
    · rw [if_pos hd, if_pos ⟨hd, by omega⟩, h4]
    · rw [if_neg hd, if_neg (by tauto)]

theorem simplifyAux_length (cost : Node → Node → Option K) (margin : K) : ∀ (l : List Cell) (a b : Cell),
    l.length ≤ 2 * (simplifyAux cost margin a b l).length
  | [], _, _ => by unfold simplifyAux; simp
  | [c], _, _ => by unfold simplifyAux; simp
  | c :: d :: rest, a, b => by
      unfold simplifyAux
      have ih := simplifyAux_length cost margin rest c d
      split <;> simp only [List.length_cons] <;> omega

theorem pass_split (cost : Node → Node → Option K) (margin : K) (pre post : List Cell) (a b c d : Cell)
    (hpre : Even pre.length) :
    simplifyPass cost margin (pre ++ a :: b :: c :: d :: post) =
      (simplifyPass cost margin (pre ++ [a, b])) ++
        ((if keepsVertex cost margin a b c d = true then [c] else []) ++ d :: simplifyAux cost margin c d post) := by
  have aux : ∀ (m : ℕ) (pre : List Cell), pre.length = 2 * m → ∀ x y : Cell,
      simplifyAux cost margin x y (pre ++ a :: b :: c :: d :: post) =
        simplifyAux cost margin x y (pre ++ [a, b]) ++
          ((if keepsVertex cost margin a b c d = true then [c] else []) ++ d :: simplifyAux cost margin c d post) := by
    intro m
    induction m with
    | zero =>
        intro pre hp x y
        have : pre = [] := List.length_eq_zero_iff.mp (by omega)
        subst this
        rw [List.nil_append, List.nil_append]
        have e1 : simplifyAux cost margin x y (a :: b :: c :: d :: post) =
            if keepsVertex cost margin x y a b = true then a :: b :: simplifyAux cost margin a b (c :: d :: post)
            else b :: simplifyAux cost margin a b (c :: d :: post) := by rw [simplifyAux]
        have e2 : simplifyAux cost margin x y [a, b] =
            if keepsVertex cost margin x y a b = true then [a, b] else [b] := by
          rw [simplifyAux]
          rfl
        have e3 : simplifyAux cost margin a b (c :: d :: post) =
            (if keepsVertex cost margin a b c d = true then [c] else []) ++ d :: simplifyAux cost margin c d post := by
          rw [simplifyAux]
          split <;> rfl
        rw [e1, e2, e3]
        split <;> rfl
    | succ m ih =>
        intro pre hp x y
        match pre, hp with
        | [], h => simp at h
        | [p], h => simp at h; omega
        | p :: q :: pre', h =>
            have hl : pre'.length = 2 * m := by simp only [List.length_cons] at h; omega
            have e1 : ∀ s, simplifyAux cost margin x y (p :: q :: s) =
                (if keepsVertex cost margin x y p q = true then [p] else []) ++ q :: simplifyAux cost margin p q s := by
              intro s
              rw [simplifyAux]
              split <;> rfl
            rw [List.cons_append, List.cons_append, List.cons_append, List.cons_append, e1, e1, ih pre' hl p q]
            rw [List.append_assoc, List.cons_append]
  obtain ⟨m, hm⟩ := hpre
  match pre, hm with
  | [], _ =>
      rw [List.nil_append, List.nil_append]
      unfold simplifyPass
      have e2 : simplifyAux cost margin a b [] = [] := by rw [simplifyAux]
      have e3 : simplifyAux cost margin a b (c :: d :: post) =
          (if keepsVertex cost margin a b c d = true then [c] else []) ++ d :: simplifyAux cost margin c d post := by
        rw [simplifyAux]
        split <;> rfl
      dsimp only
      rw [e2, e3]
      rfl
  | [p], h => simp at h; omega
  | p :: q :: pre', h =>
      have hl : pre'.length = 2 * (m - 1) := by simp only [List.length_cons] at h; omega
      unfold simplifyPass
      simp only [List.cons_append]
      rw [aux (m - 1) pre' hl p q]

/-- **Specification**: replacing the two edges `b-c-d` by `b-d` raises the cost beyond the margin (all costs are numbers). -/
def TooCostly (cost : Node → Node → Option K) (margin : K) (a b c d : Cell) : Prop :=
  ∃ x y w, cost ⟨b, a⟩ ⟨c, b⟩ = some x ∧ cost ⟨c, b⟩ ⟨d, c⟩ = some y ∧ cost ⟨b, a⟩ ⟨d, b⟩ = some w ∧ margin * (x + y) < w

theorem keeps_iff (cost : Node → Node → Option K) (margin : K) (a b c d : Cell) :
    keepsVertex cost margin a b c d = true ↔ TooCostly cost margin a b c d := by
  unfold keepsVertex TooCostly
  cases cost ⟨b, a⟩ ⟨c, b⟩ with
  | none => simp
  | some x =>
      cases cost ⟨c, b⟩ ⟨d, c⟩ with
      | none => simp
      | some y =>
          cases cost ⟨b, a⟩ ⟨d, b⟩ with
          | none => simp
          | some w =>
              dsimp only
              rw [decide_eq_true_iff]
              constructor
              · intro h; exact ⟨x, y, w, rfl, rfl, rfl, h⟩
              · rintro ⟨x', y', w', h1, h2, h3, h4⟩
                rw [Option.some_inj.mp h1, Option.some_inj.mp h2, Option.some_inj.mp h3]
                exact h4

/-- **C54**: a pass examines every second point of the path and removes it exactly if the direct edge costs at most
`margin` times the two edges it replaces (or a cost is NaN): `c`, examined between `b` and `d`, disappears from between them if
and only if replacing it is not too costly. The point before it, `b`, and the one after it, `d`, stay. -/
theorem C54_removal_rule (cost : Node → Node → Option K) (margin : K) (pre post : List Cell) (a b c d : Cell)
    (hpre : Even pre.length) :
    ∃ A B, A.getLast? = some b ∧ A.Sublist (pre ++ [a, b]) ∧ B.Sublist post ∧
      (TooCostly cost margin a b c d → simplifyPass cost margin (pre ++ a :: b :: c :: d :: post) = A ++ c :: d :: B) ∧
      (¬ TooCostly cost margin a b c d → simplifyPass cost margin (pre ++ a :: b :: c :: d :: post) = A ++ d :: B) := by
  obtain ⟨h1, _, h3⟩ := simplifyPass_spec cost margin (pre ++ [a, b])
  refine ⟨simplifyPass cost margin (pre ++ [a, b]), simplifyAux cost margin c d post, ?_, h1, simplifyAux_sublist cost margin post c d,
    fun h => ?_, fun h => ?_⟩
  · rw [h3]; simp
  · rw [pass_split cost margin pre post a b c d hpre, if_pos ((keeps_iff _ _ _ _ _ _).mpr h)]
    rfl
  · rw [pass_split cost margin pre post a b c d hpre, if_neg (fun hk => h ((keeps_iff _ _ _ _ _ _).mp hk))]
    rfl

/-! ## Cost -/

/-- **Specification**: total cost of a path: the cost of every edge given the edge before. `none` if a cost is NaN. -/
def totalCost (cost : Node → Node → Option K) : List Cell → Option K
  | a :: b :: c :: rest => match cost ⟨b, a⟩ ⟨c, b⟩, totalCost cost (b :: c :: rest) with
    | some x, some y => some (x + y)
    | _, _ => none
  | _ => some 0

/-- The cost of an edge does not depend on how its start was reached (no cost for turning). -/
def NoTurnCost (cost : Node → Node → Option K) : Prop := ∀ (p p' : Cell) (u v : Cell), cost ⟨u, p⟩ ⟨v, u⟩ = cost ⟨u, p'⟩ ⟨v, u⟩

theorem totalCost_parent {cost : Node → Node → Option K} (hn : NoTurnCost cost) (a a' b : Cell) (l : List Cell) :
    totalCost cost (a :: b :: l) = totalCost cost (a' :: b :: l) := by
  cases l with
  | nil => rfl
  | cons c l => unfold totalCost; rw [hn a a' b c]

theorem totalCost_nonneg {cost : Node → Node → Option K} (hpos : ∀ u v x, cost u v = some x → 0 ≤ x) : ∀ (l : List Cell) (x : K),
    totalCost cost l = some x → 0 ≤ x
  | [], x, h => by unfold totalCost at h; rw [← Option.some_inj.mp h]
  | [_], x, h => by unfold totalCost at h; rw [← Option.some_inj.mp h]
  | [_, _], x, h => by unfold totalCost at h; rw [← Option.some_inj.mp h]
  | a :: b :: c :: rest, x, h => by
      unfold totalCost at h
      cases h1 : cost ⟨b, a⟩ ⟨c, b⟩ with
      | none => rw [h1] at h; exact absurd h (by simp)
      | some u =>
          cases h2 : totalCost cost (b :: c :: rest) with
          | none => rw [h1, h2] at h; exact absurd h (by simp)
          | some w =>
              rw [h1, h2] at h
              have e : u + w = x := Option.some_inj.mp h
              rw [← e]
              have := hpos _ _ _ h1
              have := totalCost_nonneg hpos (b :: c :: rest) w h2
              linarith

/-- all costs are numbers -/
def NoNaN (cost : Node → Node → Option K) : Prop := ∀ u v, cost u v ≠ none

theorem totalCost_some {cost : Node → Node → Option K} (hs : NoNaN cost) : ∀ l : List Cell, ∃ x, totalCost cost l = some x
  | [] => ⟨0, rfl⟩
  | [_] => ⟨0, rfl⟩
  | [_, _] => ⟨0, rfl⟩
  | a :: b :: c :: rest => by
      obtain ⟨x, hx⟩ := Option.ne_none_iff_exists'.mp (hs ⟨b, a⟩ ⟨c, b⟩)
      obtain ⟨y, hy⟩ := totalCost_some hs (b :: c :: rest)
      exact ⟨x + y, by unfold totalCost; rw [hx, hy]⟩

theorem pass_cost {cost : Node → Node → Option K} (hs : NoNaN cost) (hn : NoTurnCost cost)
    (hpos : ∀ u v x, cost u v = some x → 0 ≤ x) (margin : K) (hm : 1 ≤ margin) : ∀ (l : List Cell) (a b : Cell) (x y : K),
    totalCost cost (a :: b :: l) = some x → totalCost cost (a :: b :: simplifyAux cost margin a b l) = some y → y ≤ margin * x
  | [], a, b, x, y, hx, hy => by
      unfold simplifyAux at hy
      unfold totalCost at hx hy
      rw [← Option.some_inj.mp hx, ← Option.some_inj.mp hy]; simp
  | [c], a, b, x, y, hx, hy => by
      unfold simplifyAux at hy
      rw [hx, Option.some_inj] at hy
      rw [← hy]
      have := totalCost_nonneg hpos _ _ hx
      nlinarith
  | c :: d :: rest, a, b, x, y, hx, hy => by
      obtain ⟨u, hu⟩ := Option.ne_none_iff_exists'.mp (hs ⟨b, a⟩ ⟨c, b⟩)
      obtain ⟨v, hv⟩ := Option.ne_none_iff_exists'.mp (hs ⟨c, b⟩ ⟨d, c⟩)
      obtain ⟨w, hw⟩ := Option.ne_none_iff_exists'.mp (hs ⟨b, a⟩ ⟨d, b⟩)
      obtain ⟨r, hr⟩ := totalCost_some hs (c :: d :: rest)
      obtain ⟨r', hr'⟩ := totalCost_some hs (c :: d :: simplifyAux cost margin c d rest)
      have ih := pass_cost hs hn hpos margin hm rest c d r r' hr hr'
      have hx' : x = u + (v + r) := by
        rw [totalCost, hu, totalCost, hv, hr] at hx
        exact (Option.some_inj.mp hx).symm
      unfold simplifyAux at hy
      have hu0 := hpos _ _ _ hu
      have hv0 := hpos _ _ _ hv
      by_cases hk : keepsVertex cost margin a b c d = true
      · rw [if_pos hk] at hy
        have hy' : y = u + (v + r') := by
          rw [totalCost, hu, totalCost, hv, hr'] at hy
          exact (Option.some_inj.mp hy).symm
        rw [hx', hy']
        nlinarith
      · rw [if_neg hk] at hy
        unfold keepsVertex at hk
        rw [hu, hv, hw] at hk
        simp only [decide_eq_true_eq, not_lt] at hk
        have hy' : y = w + r' := by
          rw [totalCost, hw, totalCost_parent hn b c d, hr'] at hy
          exact (Option.some_inj.mp hy).symm
        rw [hx', hy']
        nlinarith

theorem loop_cost {cost : Node → Node → Option K} (hs : NoNaN cost) (hn : NoTurnCost cost)
    (hpos : ∀ u v x, cost u v = some x → 0 ≤ x) (margin : K) (hm : 1 ≤ margin) (n : ℕ) : ∀ (l : List Cell) (x y : K),
    totalCost cost l = some x → totalCost cost (simplifyLoop cost margin n l) = some y → y ≤ margin ^ n * x := by
  induction n with
  | zero =>
      intro l x y hx hy
      unfold simplifyLoop at hy
      rw [hx, Option.some_inj] at hy
      rw [← hy, pow_zero, one_mul]
  | succ n ih =>
      intro l x y hx hy
      have hx0 := totalCost_nonneg hpos _ _ hx
      unfold simplifyLoop at hy
      split at hy
      · rw [hx, Option.some_inj] at hy
        rw [← hy]
        have : 1 ≤ margin ^ (n + 1) := one_le_pow₀ hm
        nlinarith
      · obtain ⟨z, hz⟩ := totalCost_some hs (simplifyPass cost margin l)
        have h1 := ih _ z y hz hy
        have h2 : z ≤ margin * x := by
          match l with
          | [] => rw [simplifyPass, hx, Option.some_inj] at hz; rw [← hz]; nlinarith
                  intro a b rest h; simp at h
          | [a] => rw [simplifyPass, hx, Option.some_inj] at hz; rw [← hz]; nlinarith
                   intro a b rest h; simp at h
          | a :: b :: rest => exact pass_cost hs hn hpos margin hm rest a b x z hx hz
        have hmn : 0 ≤ margin ^ n := by positivity
        calc y ≤ margin ^ n * z := h1
          _ ≤ margin ^ n * (margin * x) := mul_le_mul_of_nonneg_left h2 hmn
          _ = margin ^ (n + 1) * x := by rw [pow_succ]; ring

/-- **C54**: what simplification can cost. If costs are non-negative numbers and turning is free, `n` iterations with a margin
`m ≥ 1` raise the total cost of the path at most by the factor `mⁿ`. (With a cost for turning no such bound holds: the decision
looks at the edge before, which the same pass may replace.) -/
theorem C54_total_cost {cost : Node → Node → Option K} (hs : NoNaN cost) (hn : NoTurnCost cost)
    (hpos : ∀ u v x, cost u v = some x → 0 ≤ x) (margin maxIter : K) (hm : 1 ≤ margin) (path : List Cell) (x y : K)
    (hx : totalCost cost path = some x) (hy : totalCost cost (simplifyPath cost path margin maxIter false) = some y) :
    y ≤ margin ^ ⌈maxIter⌉₊ * x := by
  unfold simplifyPath at hy
  have hx0 := totalCost_nonneg hpos _ _ hx
  split at hy
  · rw [hx, Option.some_inj] at hy
    rw [← hy]
    have : 1 ≤ margin ^ ⌈maxIter⌉₊ := one_le_pow₀ hm
    nlinarith
  · dsimp only at hy
    rw [if_neg (by simp)] at hy
    exact loop_cost hs hn hpos margin hm _ path x y hx hy

/-! ## The call in the node -/

/-- **C54** (violated): the parameters do not do what they say. The node passes the number of iterations for the margin and the margin
for the number of iterations: with `simplify_iterations = 0` ("do not simplify") the path is simplified, in
`⌈simplify_margin⌉` passes, with margin 0 - every point examined is removed whose direct edge has cost 0 or less -, and with the
largest allowed `simplify_margin`, 2.0, at most two passes are made whatever `simplify_iterations` says. -/
theorem C54_swapped_parameters_violated (cost : Node → Node → Option K) (path : List Cell) (iterations : ℤ) (margin : K)
    (h2 : 0 < margin) (hm : margin ≤ 2) (h3 : 3 ≤ path.length) :
    (∃ n, (n = 1 ∨ n = 2) ∧ nodeSimplify cost path iterations margin =
      (simplifyLoop cost (iterations : K) n path) ++ path.getLast?.toList) := by
  have hc : ⌈margin⌉₊ = 1 ∨ ⌈margin⌉₊ = 2 := by
    have h1 : 0 < ⌈margin⌉₊ := Nat.ceil_pos.mpr h2
    have h4 : ⌈margin⌉₊ ≤ 2 := Nat.ceil_le.mpr (by exact_mod_cast hm)
    omega
  refine ⟨⌈margin⌉₊, hc, ?_⟩
  unfold nodeSimplify simplifyPath
  rw [if_neg (by omega)]
  dsimp only
  rw [if_pos rfl, (simplifyLoop_spec cost _ _ path).2.2]

/-- a cost function on cells: Manhattan distance of the edge -/
def exCost (u v : Node) : Option ℚ := some (|((v.cell.x - u.cell.x : ℤ) : ℚ)| + |((v.cell.y - u.cell.y : ℤ) : ℚ)|)

/-- non-vacuity: a staircase of seven points loses three of them in two passes (shipped parameters as the node passes them) -/
example : nodeSimplify exCost [⟨0,0,3⟩, ⟨1,0,3⟩, ⟨2,0,3⟩, ⟨3,0,3⟩, ⟨3,1,3⟩, ⟨3,2,3⟩, ⟨3,3,3⟩] 1 (101/100) =
    [⟨0,0,3⟩, ⟨1,0,3⟩, ⟨3,2,3⟩, ⟨3,3,3⟩, ⟨3,3,3⟩] := by decide +kernel
example : NoTurnCost exCost ∧ NoNaN exCost ∧ (∀ u v x, exCost u v = some x → 0 ≤ x) := by
  refine ⟨fun _ _ _ _ => rfl, fun _ _ h => by simp [exCost] at h, fun u v x h => ?_⟩
  unfold exCost at h
  rw [← Option.some_inj.mp h]
  positivity
example : totalCost exCost [⟨0,0,3⟩, ⟨1,0,3⟩, ⟨2,0,3⟩, ⟨3,0,3⟩, ⟨3,1,3⟩] = some 3 := by decide +kernel

end

/-! ## Safety of simplified edges -/

/-- **C54** (violated): simplification does not ask whether the new edge is legal. With `risk_factor = 0` (allowed by the
configuration) a detour around an occupied cell is replaced by the straight edge through it. -/
theorem C54_simplified_edge_unsafe_violated :
    ∃ (W : RiskWorld ℝ) (C : CostCfg) (path : List Cell),
      GoodWorld W ∧ GoodCost C ∧ isOccupied 1 W ⟨1, 0, 3⟩ = true ∧
      path = [⟨-1, 0, 3⟩, ⟨0, 0, 3⟩, ⟨1, 1, 3⟩, ⟨2, 0, 3⟩] ∧
      simplifyPath (edgeCost 1 W C (fun _ => false) .node) path 1 1 false = [⟨-1, 0, 3⟩, ⟨0, 0, 3⟩, ⟨2, 0, 3⟩] ∧
      Crossed ⟨0, 0, 3⟩ ⟨2, 0, 3⟩ ⟨1, 0, 3⟩ := by
  refine ⟨oneObstacle ⟨1, 0, 3⟩, { exampleCfg with riskFactor := 0 }, _, oneObstacle_good _, ⟨?_, ?_, ?_, ?_⟩, ?_, rfl, ?_, ?_⟩
  · exact le_refl _
  · exact le_refl _
  · unfold exampleCfg; norm_num
  · unfold exampleCfg; norm_num
  · unfold isOccupied
    rw [decide_eq_true_iff]
    unfold singleRisk oneObstacle
    rw [if_neg (by norm_num)]
    dsimp only
    rw [if_pos rfl]
    dsimp only
    rw [if_pos (Or.inl (by decide))]
    have : altPrior (1 : ℝ) ⟨1, 0, 3⟩ = 833 / 10000 := by
      unfold altPrior
      dsimp only
      have hr : roundAway (pos (1 : ℝ) 3) = 4 := by rw [roundAway_centre]; rfl
      rw [hr]
      rfl
    rw [this]
    unfold posterior
    norm_num
  · have hk : keepsVertex (edgeCost 1 (oneObstacle ⟨1, 0, 3⟩) { exampleCfg with riskFactor := 0 } (fun _ => false) .node) 1
        ⟨-1, 0, 3⟩ ⟨0, 0, 3⟩ ⟨1, 1, 3⟩ ⟨2, 0, 3⟩ = false := by
      unfold keepsVertex
      unfold edgeCost
      cases nodeRisk 1 (oneObstacle ⟨1, 0, 3⟩) ⟨⟨1, 1, 3⟩, ⟨0, 0, 3⟩⟩ with
      | none => rfl
      | some r1 =>
          cases nodeRisk 1 (oneObstacle ⟨1, 0, 3⟩) ⟨⟨2, 0, 3⟩, ⟨1, 1, 3⟩⟩ with
          | none => rfl
          | some r2 =>
              cases nodeRisk 1 (oneObstacle ⟨1, 0, 3⟩) ⟨⟨2, 0, 3⟩, ⟨0, 0, 3⟩⟩ with
              | none => rfl
              | some r3 =>
                  dsimp only [Option.map_some]
                  rw [decide_eq_false_iff_not, not_lt]
                  unfold edgeDist exampleCfg Cell.dist2D pos
                  norm_num
                  have h1 : (1 : ℝ) ≤ Real.sqrt 2 := by
                    rw [Real.le_sqrt (by norm_num) (by norm_num)]; norm_num
                  have h4 : Real.sqrt 4 = 2 := by
                    rw [show (4 : ℝ) = 2 ^ 2 by norm_num, Real.sqrt_sq (by norm_num)]
                  linarith
    unfold simplifyPath
    rw [if_neg (by simp)]
    dsimp only
    rw [if_neg (by simp)]
    have hc : ⌈(1 : ℝ)⌉₊ = 1 := by norm_num
    rw [hc]
    unfold simplifyLoop
    have hp : simplifyPass (edgeCost 1 (oneObstacle ⟨1, 0, 3⟩) { exampleCfg with riskFactor := 0 } (fun _ => false) .node) 1
        [⟨-1, 0, 3⟩, ⟨0, 0, 3⟩, ⟨1, 1, 3⟩, ⟨2, 0, 3⟩] = [⟨-1, 0, 3⟩, ⟨0, 0, 3⟩, ⟨2, 0, 3⟩] := by
      unfold simplifyPass
      dsimp only
      unfold simplifyAux
      rw [hk, if_neg (by simp)]
      unfold simplifyAux
      rfl
    rw [hp, if_neg (by simp)]
    unfold simplifyLoop
    rfl
  · refine ⟨1 / 2, by norm_num, by norm_num, ?_⟩
    unfold InBox segPoint
    norm_num

end Global
end Avoidance
