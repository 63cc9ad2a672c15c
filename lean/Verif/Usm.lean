import Mathlib.Data.List.Basic

/-!
# `avoidance/include/avoidance/usm.h` – the state-machine engine

Model only.  `World` is whatever state the virtual `runCurrentState()` reads and writes.
-/

namespace Avoidance

/-- `enum class Transition`, usm.h:40. -/
inductive Transition where
  | REPEAT | NEXT1 | NEXT2 | NEXT3 | NEXT4 | ERROR
deriving DecidableEq, Repr

/-- `StateMachine<StateEnum>` (usm.h:42-59) with its two virtual functions. -/
structure Machine (S World : Type*) where
  /-- `runCurrentState()`, usm.h:51 -/
  run : S → World → Transition × World
  /-- `chooseNextState`, usm.h:52 -/
  choose : S → Transition → S

/-- `iterateOnce`, usm.h:66-70. -/
def Machine.iterateOnce {S World : Type*} (m : Machine S World) (s : S) (w : World) : S × World :=
  let r := m.run s w
  (if r.1 ≠ .REPEAT then m.choose s r.1 else s, r.2)

/-- The nested switches built by `USM_TABLE`/`USM_STATE`/`USM_MAP` (usm.h:81-99): rows are
`(start_state, transition, next_state)`; anything not mapped returns `error`. -/
def usmTable {S : Type*} [DecidableEq S] (error : S) (rows : List (S × Transition × S)) (s : S)
    (t : Transition) : S :=
  match rows.find? (fun r => r.1 = s ∧ r.2.1 = t) with
  | some r => r.2.2
  | none => error

/-- Any number of iterations. -/
def Machine.iterate {S World : Type*} (m : Machine S World) : ℕ → S × World → S × World
  | 0, x => x
  | n + 1, x => m.iterate n (m.iterateOnce x.1 x.2)

end Avoidance
