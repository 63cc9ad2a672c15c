import Verif.Usm
import Mathlib.Logic.Relation

/-!
# C20 – state-machine engine
-/

namespace Avoidance
variable {S World : Type*}

/-! ## Specification -/

/-- `next` is the table's answer to transition `t` in state `s`, as the user of the macros reads
it: an entry of the table, or the error state when the pair has no entry. -/
def TableAnswer (error : S) (rows : List (S × Transition × S)) (s : S) (t : Transition)
    (next : S) : Prop :=
  (s, t, next) ∈ rows ∨ ((∀ n, (s, t, n) ∉ rows) ∧ next = error)

/-- One possible step of a machine with this table: stay, follow an entry, or fall into the
error state from a pair without an entry. -/
inductive TableEdge (error : S) (rows : List (S × Transition × S)) : S → S → Prop
  | stay (s) : TableEdge error rows s s
  | entry {s n} (t) (h : (s, t, n) ∈ rows) (hr : t ≠ .REPEAT) : TableEdge error rows s n
  | err {s} (t) (h : ∀ n, (s, t, n) ∉ rows) (hr : t ≠ .REPEAT) : TableEdge error rows s error

/-- **C20 (table).** The generated switch answers with a table entry, or the error state when
there is none; when the table has one entry per pair (duplicate `case` labels do not compile)
the answer is that entry. -/
theorem C20_table [DecidableEq S] (error : S) (rows : List (S × Transition × S)) (s : S)
    (t : Transition) :
    TableAnswer error rows s t (usmTable error rows s t) ∧
    ((rows.Pairwise (fun a b => (a.1, a.2.1) ≠ (b.1, b.2.1))) →
      ∀ n, (s, t, n) ∈ rows → usmTable error rows s t = n) := by
  unfold usmTable
  cases h : rows.find? (fun r => decide (r.1 = s ∧ r.2.1 = t)) with
  | none =>
    rw [List.find?_eq_none] at h
    have hno : ∀ n, (s, t, n) ∉ rows := fun n hn => by simpa using h _ hn
    exact ⟨Or.inr ⟨hno, rfl⟩, fun _ n hn => absurd hn (hno n)⟩
  | some r =>
    obtain ⟨r1, r2, r3⟩ := r
    have h1 := List.find?_some h
    simp only [decide_eq_true_eq] at h1
    obtain ⟨rfl, rfl⟩ := h1
    have h2 := List.mem_of_find?_eq_some h
    refine ⟨Or.inl h2, ?_⟩
    intro hp n hn
    by_contra hne
    have hp' : rows.Pairwise (fun a b => (a.1, a.2.1) ≠ (b.1, b.2.1)) := hp
    have key : ∀ l : List (S × Transition × S), l.Pairwise (fun a b => (a.1, a.2.1) ≠ (b.1, b.2.1)) →
        ∀ a ∈ l, ∀ b ∈ l, (a.1, a.2.1) = (b.1, b.2.1) → a = b := by
      intro l hl
      induction l with
      | nil => simp
      | cons x l ih =>
        obtain ⟨hx, hl'⟩ := List.pairwise_cons.1 hl
        intro a ha b hb hab
        rcases List.mem_cons.1 ha with h3 | h3 <;> rcases List.mem_cons.1 hb with h4 | h4
        · rw [h3, h4]
        · exact absurd (h3 ▸ hab) (hx b h4)
        · exact absurd (h4 ▸ hab.symm) (hx a h3)
        · exact ih hl' a h3 b h4 hab
    have := key rows hp' _ h2 _ hn rfl
    simp only [Prod.mk.injEq, true_and] at this
    exact hne this

/-- **C20 (one iteration).** One iteration runs the current state exactly once (the world after
it is the world that state's handler leaves); on REPEAT the state is kept whatever the table
says; otherwise it becomes the chosen next state. -/
theorem C20_iterateOnce (m : Machine S World) (s : S) (w : World) :
    (m.iterateOnce s w).2 = (m.run s w).2 ∧
    ((m.run s w).1 = .REPEAT → (m.iterateOnce s w).1 = s) ∧
    ((m.run s w).1 ≠ .REPEAT → (m.iterateOnce s w).1 = m.choose s (m.run s w).1) := by
  unfold Machine.iterateOnce
  refine ⟨rfl, fun h => by simp [h], fun h => by simp [h]⟩

/-- **C20 (runs).** For every handler behaviour and every number of iterations, the state is
connected to the starting state by table steps: entries of the table or falling into the error
state. -/
theorem C20_run_follows_table [DecidableEq S] (error : S) (rows : List (S × Transition × S))
    (m : Machine S World) (hm : m.choose = usmTable error rows) (n : ℕ) (s : S) (w : World) :
    Relation.ReflTransGen (TableEdge error rows) s (m.iterate n (s, w)).1 := by
  induction n generalizing s w with
  | zero => exact Relation.ReflTransGen.refl
  | succ n ih =>
    refine Relation.ReflTransGen.head ?_ (ih (m.iterateOnce s w).1 (m.iterateOnce s w).2)
    by_cases h : (m.run s w).1 = .REPEAT
    · rw [(C20_iterateOnce m s w).2.1 h]; exact .stay s
    · rw [(C20_iterateOnce m s w).2.2 h, hm]
      rcases (C20_table error rows s (m.run s w).1).1 with h1 | ⟨h1, h2⟩
      · exact .entry _ h1 h
      · rw [h2]; exact .err _ h1 h

/-- Consequence: a set of states that contains the start, the error state and the targets of its
own entries is never left. -/
theorem C20_closed_set [DecidableEq S] (error : S) (rows : List (S × Transition × S))
    (m : Machine S World) (hm : m.choose = usmTable error rows) (P : S → Prop)
    (he : P error) (hc : ∀ r ∈ rows, P r.1 → P r.2.2) (n : ℕ) (s : S) (w : World) (hs : P s) :
    P (m.iterate n (s, w)).1 := by
  have h := C20_run_follows_table error rows m hm n s w
  generalize (m.iterate n (s, w)).1 = f at h
  induction h with
  | refl => exact hs
  | tail _ e ih =>
    cases e with
    | stay => exact ih
    | entry t h hr => exact hc _ h ih
    | err t h hr => exact he

/-- Non-vacuity: a three-state machine that runs through an entry, a repeat and the error exit. -/
example : (Machine.iterate ⟨fun (s : Fin 3) (w : ℕ) =>
      (if s = 0 then .NEXT1 else if w < 3 then .REPEAT else .NEXT4, w + 1),
      usmTable 2 [(0, .NEXT1, 1), (1, .NEXT2, 0)]⟩ 3 (0, 0) = (1, 3)) ∧
    (Machine.iterate ⟨fun (s : Fin 3) (w : ℕ) =>
      (if s = 0 then .NEXT1 else if w < 3 then .REPEAT else .NEXT4, w + 1),
      usmTable 2 [(0, .NEXT1, 1), (1, .NEXT2, 0)]⟩ 4 (0, 0) = (2, 4)) := by decide

end Avoidance
