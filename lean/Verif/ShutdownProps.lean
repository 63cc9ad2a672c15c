import Verif.Shutdown
import Mathlib.Algebra.BigOperators.Group.Finset.Basic
import Mathlib.Algebra.Order.BigOperators.Group.Finset
import Mathlib.Order.Filter.AtTopBot.Basic
import Mathlib.Tactic.Linarith

/-!
# C99: ending the nodes
-/

set_option linter.unusedSectionVars false

namespace Avoidance

section
variable {T L : Type} [DecidableEq T] [DecidableEq L]

/-! ## Specification: runs -/

/-- Thread `t` can take a step. -/
def Enabled (s : XState T L) (t : T) : Prop := ∃ s', XStep s t s'

/-- An infinite run of the process. -/
structure Run (progs : T → XProg T L) where
  state : ℕ → XState T L
  act : ℕ → XAct T
  start : XReach progs (state 0)
  next : ∀ i, XNext (state i) (act i) (state (i + 1))

/-- Every thread of `J` that can take a step again and again does so again and again. -/
def Run.Fair {progs : T → XProg T L} (r : Run progs) (J : Finset T) : Prop :=
  ∀ t ∈ J, (∀ N, ∃ i, N ≤ i ∧ Enabled (r.state i) t) → ∀ N, ∃ i, N ≤ i ∧ r.act i = .thread t

/-- The threads outside `J` do not keep a mutex for ever. -/
def Run.OthersRelease {progs : T → XProg T L} (r : Run progs) (J : Finset T) : Prop :=
  ∀ l N, ∃ i, N ≤ i ∧ ∀ t, (r.state i).owner l = some t → t ∈ J

/-! ## Erasure to the language of locks -/

/-- The locking structure of a program. -/
def XProg.erase : XProg T L → LockProg L
  | .skip => .skip
  | .seq a b => .seq a.erase b.erase
  | .choice a b => .choice a.erase b.erase
  | .star a => .star a.erase
  | .guarded l b => .guarded l b.erase
  | .whileRunning p => .star p.erase
  | .ifRunning p => .choice p.erase .skip
  | .retest c p => .star (.seq p.erase c.erase)
  | .waitPosition p => .star p.erase
  | .takePosition => .skip
  | .setExit => .skip
  | .join _ => .skip

/-- The locking structure of what is left. -/
def XTodo.erase : XTodo T L → Todo L
  | .run p => .run p.erase
  | .unlock l => .unlock l

/-- The locking structure of a state. -/
def XState.erase (s : XState T L) : LockState T L := ⟨fun t => (s.cont t).map XTodo.erase, s.owner⟩

theorem erase_go (s : XState T L) (t : T) (k : List (XTodo T L)) (o : L → Option T) :
    (⟨fun u => (Function.update s.cont t k u).map XTodo.erase, o⟩ : LockState T L) =
      ⟨Function.update s.erase.cont t (k.map XTodo.erase), o⟩ := by
  congr 1
  funext u
  by_cases hu : u = t
  · subst hu; simp
  · simp [hu, XState.erase]

/-- Reachability by steps of one thread. -/
inductive LockSteps (t : T) : LockState T L → LockState T L → Prop
  | refl (s) : LockSteps t s s
  | step {a b c} : LockStep a t b → LockSteps t b c → LockSteps t a c

theorem LockSteps.reach {progs : T → LockProg L} {t : T} {a b : LockState T L} (h : LockSteps t a b) : LockReach progs a → LockReach progs b := by
  induction h with
  | refl => exact id
  | step hs _ ih => exact fun ha => ih (ha.step hs)

theorem step_erase {s s' : XState T L} {t : T} (h : XStep s t s') : LockSteps t s.erase s'.erase := by
  have hc : ∀ {x k}, s.cont t = x :: k → s.erase.cont t = x.erase :: k.map XTodo.erase := by
    intro x k h; show (s.cont t).map XTodo.erase = _; rw [h]; rfl
  have one : ∀ {b}, LockStep s.erase t b → b = s'.erase → LockSteps t s.erase s'.erase := by
    intro b hb he; rw [← he]; exact .step hb (.refl _)
  have hgo : ∀ k, (s.go t k).erase = { s.erase with cont := Function.update s.erase.cont t (k.map XTodo.erase) } :=
    fun k => erase_go s t k s.owner
  cases h with
  | skip h => exact one (.skip (hc h)) (by rw [hgo]; try rfl)
  | seq h => exact one (.seq (hc h)) (by rw [hgo]; try rfl)
  | left h => exact one (.left (hc h)) (by rw [hgo]; try rfl)
  | right h => exact one (.right (hc h)) (by rw [hgo]; try rfl)
  | stop h => exact one (.stop (hc h)) (by rw [hgo]; try rfl)
  | again h => exact one (.again (hc h)) (by rw [hgo]; try rfl)
  | lock h ho => exact one (.lock (hc h) ho) (by symm; exact erase_go s t _ _)
  | unlock h => exact one (.unlock (hc h)) (by symm; exact erase_go s t _ _)
  | whileEnd h _ => exact one (.stop (hc h)) (by rw [hgo]; try rfl)
  | whileBody h _ => exact one (.again (hc h)) (by rw [hgo]; try rfl)
  | ifEnd h _ =>
    refine .step (.right (hc h)) (.step (.skip (Function.update_self _ _ _)) ?_)
    rw [hgo]
    simp only [Function.update_idem]
    exact .refl _
  | ifBody h _ => exact one (.left (hc h)) (by rw [hgo]; try rfl)
  | retestEnd h => exact one (.stop (hc h)) (by rw [hgo]; try rfl)
  | retestBody h _ =>
    refine .step (.again (hc h)) (.step (.seq (Function.update_self _ _ _)) ?_)
    rw [hgo]
    simp only [Function.update_idem]
    exact .refl _
  | posEnd h _ => exact one (.stop (hc h)) (by rw [hgo]; try rfl)
  | posBody h _ _ => exact one (.again (hc h)) (by rw [hgo]; try rfl)
  | take h => exact one (.skip (hc h)) (by symm; exact erase_go s t _ _)
  | setExit h => exact one (.skip (hc h)) (by symm; exact erase_go s t _ _)
  | join h _ => exact one (.skip (hc h)) (by symm; exact erase_go s t _ _)

theorem reach_erase {progs : T → XProg T L} {s : XState T L} (h : XReach progs s) : LockReach (fun t => (progs t).erase) s.erase := by
  induction h with
  | start => exact .start
  | @step s a s' _ hn ih =>
    cases a with
    | thread t => exact (step_erase hn).reach ih
    | position => cases hn; exact ih
    | notOk => cases hn; exact ih
    | idle => cases hn; exact ih

/-! ## After `should_exit_` is set -/

/-- The program has no loop that `should_exit_` does not end. -/
def XProg.Ends : XProg T L → Prop
  | .seq a b => a.Ends ∧ b.Ends
  | .choice a b => a.Ends ∧ b.Ends
  | .star _ => False
  | .guarded _ b => b.Ends
  | .whileRunning p => p.Ends
  | .ifRunning p => p.Ends
  | .retest c p => c.Ends ∧ p.Ends
  | .waitPosition _ => False
  | _ => True

/-- An upper bound for the steps left once `should_exit_` is set. -/
def XProg.left : XProg T L → ℕ
  | .seq a b => a.left + b.left + 1
  | .choice a b => a.left + b.left + 1
  | .guarded _ b => b.left + 2
  | _ => 1

/-- The same for what a thread has left. -/
def stepsLeft : List (XTodo T L) → ℕ
  | [] => 0
  | .run p :: k => p.left + stepsLeft k
  | .unlock _ :: k => stepsLeft k + 1

/-- What a thread has left ends with `should_exit_`. -/
def EndsAll : List (XTodo T L) → Prop
  | [] => True
  | .run p :: k => p.Ends ∧ EndsAll k
  | .unlock _ :: k => EndsAll k

theorem left_pos (p : XProg T L) : 0 < p.left := by cases p <;> simp [XProg.left]

theorem step_other {s s' : XState T L} {t u : T} (h : XStep s t s') (hu : u ≠ t) : s'.cont u = s.cont u := by
  cases h <;> simp [XState.go, hu]

theorem step_ends {s s' : XState T L} {t : T} (h : XStep s t s') (he : EndsAll (s.cont t)) : EndsAll (s'.cont t) := by
  cases h <;> rename_i hc <;> (try rename_i hx; skip) <;> simp_all [XState.go, EndsAll, XProg.Ends]

theorem step_left {s s' : XState T L} {t : T} (h : XStep s t s') (he : EndsAll (s.cont t)) (hx : s.exit = true) :
    stepsLeft (s'.cont t) < stepsLeft (s.cont t) := by
  cases h with
  | skip hc => simp [XState.go, hc, stepsLeft, XProg.left]
  | seq hc => simp [XState.go, hc, stepsLeft, XProg.left]; omega
  | left hc => simp [XState.go, hc, stepsLeft, XProg.left]; omega
  | @right a b k hc => have := left_pos a; simp [XState.go, hc, stepsLeft, XProg.left]; omega
  | stop hc => rw [hc] at he; exact absurd he.1 id
  | again hc => rw [hc] at he; exact absurd he.1 id
  | lock hc _ => simp [XState.go, hc, stepsLeft, XProg.left]; omega
  | unlock hc => simp [XState.go, hc, stepsLeft]
  | whileEnd hc _ => simp [XState.go, hc, stepsLeft, XProg.left]
  | whileBody hc h => rw [hx] at h; cases h
  | ifEnd hc _ => simp [XState.go, hc, stepsLeft, XProg.left]
  | ifBody hc h => rw [hx] at h; cases h
  | retestEnd hc => simp [XState.go, hc, stepsLeft, XProg.left]
  | retestBody hc h => rw [hx] at h; cases h
  | posEnd hc _ => rw [hc] at he; exact absurd he.1 id
  | posBody hc _ _ => rw [hc] at he; exact absurd he.1 id
  | take hc => simp [XState.go, hc, stepsLeft, XProg.left]
  | setExit hc => simp [XState.go, hc, stepsLeft, XProg.left]
  | join hc _ => simp [XState.go, hc, stepsLeft, XProg.left]

theorem step_exit {s s' : XState T L} {t : T} (h : XStep s t s') (hx : s.exit = true) : s'.exit = true := by
  cases h <;> simp [XState.go, hx]

/-! ## Joins -/

/-- No joining. -/
def XProg.NoJoin : XProg T L → Prop
  | .seq a b => a.NoJoin ∧ b.NoJoin
  | .choice a b => a.NoJoin ∧ b.NoJoin
  | .star a => a.NoJoin
  | .guarded _ b => b.NoJoin
  | .whileRunning p => p.NoJoin
  | .ifRunning p => p.NoJoin
  | .retest c p => c.NoJoin ∧ p.NoJoin
  | .waitPosition p => p.NoJoin
  | .join _ => False
  | _ => True

/-- Joins only threads in `J`, with no mutex held, and outside loops and branches. -/
def XProg.JoinsIn (J : T → Prop) : XProg T L → Prop
  | .seq a b => a.JoinsIn J ∧ b.JoinsIn J
  | .join u => J u
  | p => p.NoJoin

/-- The threads that are joined (in the parts that are always run). -/
def XProg.joins : XProg T L → List T
  | .seq a b => a.joins ++ b.joins
  | .join u => [u]
  | _ => []

/-- No joining in what is left. -/
def NoJoinAll : List (XTodo T L) → Prop
  | [] => True
  | .run p :: k => p.NoJoin ∧ NoJoinAll k
  | .unlock _ :: k => NoJoinAll k

/-- What is left joins only threads in `J`, with no mutex held. -/
def JoinsAll (J : T → Prop) : List (XTodo T L) → Prop
  | [] => True
  | .run p :: k => (p.NoJoin ∨ (p.JoinsIn J ∧ heldOf (k.map XTodo.erase) = [])) ∧ JoinsAll J k
  | .unlock _ :: k => JoinsAll J k

/-- The threads still to be joined. -/
def joinsLeft : List (XTodo T L) → List T
  | [] => []
  | .run p :: k => p.joins ++ joinsLeft k
  | .unlock _ :: k => joinsLeft k

theorem joins_of_noJoin (p : XProg T L) (h : p.NoJoin) : p.joins = [] := by
  induction p with
  | seq a b iha ihb => simp [XProg.joins, iha h.1, ihb h.2]
  | join u => exact absurd h id
  | _ => rfl

theorem noJoin_joinsIn (J : T → Prop) (p : XProg T L) (h : p.NoJoin) : p.JoinsIn J := by
  induction p with
  | seq a b iha ihb => exact ⟨iha h.1, ihb h.2⟩
  | join u => exact absurd h id
  | _ => exact h

theorem step_noJoin {s s' : XState T L} {t : T} (h : XStep s t s') (he : NoJoinAll (s.cont t)) : NoJoinAll (s'.cont t) := by
  cases h <;> rename_i hc <;> (try rename_i hx; skip) <;> simp_all [XState.go, NoJoinAll, XProg.NoJoin]

theorem step_joinsAll {J : T → Prop} {s s' : XState T L} {t : T} (h : XStep s t s') (he : JoinsAll J (s.cont t)) : JoinsAll J (s'.cont t) := by
  cases h with
  | skip hc => rw [hc] at he; simpa [XState.go] using he.2
  | @seq a b k hc =>
    rw [hc] at he
    simp only [XState.go, Function.update_self, JoinsAll]
    rcases he with ⟨h1 | ⟨h1, h2⟩, h3⟩
    · exact ⟨Or.inl h1.1, Or.inl h1.2, h3⟩
    · exact ⟨Or.inr ⟨h1.1, h2⟩, Or.inr ⟨h1.2, h2⟩, h3⟩
  | @left a b k hc =>
    rw [hc] at he
    simp only [XState.go, Function.update_self, JoinsAll]
    rcases he with ⟨h1 | ⟨h1, -⟩, h3⟩
    · exact ⟨Or.inl h1.1, h3⟩
    · exact ⟨Or.inl (show a.NoJoin ∧ b.NoJoin from h1).1, h3⟩
  | @right a b k hc =>
    rw [hc] at he
    simp only [XState.go, Function.update_self, JoinsAll]
    rcases he with ⟨h1 | ⟨h1, -⟩, h3⟩
    · exact ⟨Or.inl h1.2, h3⟩
    · exact ⟨Or.inl (show a.NoJoin ∧ b.NoJoin from h1).2, h3⟩
  | stop hc => rw [hc] at he; simpa [XState.go] using he.2
  | @again a k hc =>
    rw [hc] at he
    simp only [XState.go, Function.update_self, JoinsAll]
    have h1 : a.NoJoin := by rcases he.1 with h | h; exacts [h, h.1]
    exact ⟨Or.inl h1, he.1, he.2⟩
  | @lock l b k hc _ =>
    rw [hc] at he
    simp only [XState.go, Function.update_self, JoinsAll]
    have h1 : b.NoJoin := by rcases he.1 with h | h; exacts [h, h.1]
    exact ⟨Or.inl h1, he.2⟩
  | unlock hc => rw [hc] at he; simp only [XState.go, Function.update_self]; exact he
  | whileEnd hc _ => rw [hc] at he; simpa [XState.go] using he.2
  | @whileBody a k hc _ =>
    rw [hc] at he
    simp only [XState.go, Function.update_self, JoinsAll]
    have h1 : a.NoJoin := by rcases he.1 with h | h; exacts [h, h.1]
    exact ⟨Or.inl h1, he.1, he.2⟩
  | ifEnd hc _ => rw [hc] at he; simpa [XState.go] using he.2
  | @ifBody a k hc _ =>
    rw [hc] at he
    simp only [XState.go, Function.update_self, JoinsAll]
    have h1 : a.NoJoin := by rcases he.1 with h | h; exacts [h, h.1]
    exact ⟨Or.inl h1, he.2⟩
  | retestEnd hc => rw [hc] at he; simpa [XState.go] using he.2
  | @retestBody c a k hc _ =>
    rw [hc] at he
    simp only [XState.go, Function.update_self, JoinsAll]
    have h1 : c.NoJoin ∧ a.NoJoin := by rcases he.1 with h | h; exacts [h, h.1]
    exact ⟨Or.inl h1.2, Or.inl h1.1, he.1, he.2⟩
  | posEnd hc _ => rw [hc] at he; simpa [XState.go] using he.2
  | @posBody a k hc _ _ =>
    rw [hc] at he
    simp only [XState.go, Function.update_self, JoinsAll]
    have h1 : a.NoJoin := by rcases he.1 with h | h; exacts [h, h.1]
    exact ⟨Or.inl h1, he.1, he.2⟩
  | take hc => rw [hc] at he; simpa [XState.go] using he.2
  | setExit hc => rw [hc] at he; simpa [XState.go] using he.2
  | join hc _ => rw [hc] at he; simpa [XState.go] using he.2

/-- A thread leaves out a join only by doing it. -/
theorem step_joins {s s' : XState T L} {t : T} (h : XStep s t s') (u : T) (hu : u ∈ joinsLeft (s.cont t)) :
    u ∈ joinsLeft (s'.cont t) ∨ (s'.joined u = true ∧ s.cont u = []) := by
  cases h with
  | seq hc => left; rw [hc] at hu; simpa [XState.go, joinsLeft, XProg.joins, or_assoc] using hu
  | join hc hd =>
    rw [hc] at hu
    simp only [joinsLeft, XProg.joins, List.singleton_append, List.mem_cons] at hu
    rcases hu with rfl | hu
    · right; exact ⟨by simp, hd⟩
    · left; simpa [XState.go] using hu
  | unlock hc => left; rw [hc] at hu; simpa [XState.go, joinsLeft] using hu
  | skip hc => left; rw [hc] at hu; simpa [XState.go, joinsLeft, XProg.joins] using hu
  | left hc => left; rw [hc] at hu; simp only [joinsLeft, XProg.joins, List.nil_append] at hu; simp [XState.go, joinsLeft, hu]
  | right hc => left; rw [hc] at hu; simp only [joinsLeft, XProg.joins, List.nil_append] at hu; simp [XState.go, joinsLeft, hu]
  | stop hc => left; rw [hc] at hu; simpa [XState.go, joinsLeft, XProg.joins] using hu
  | again hc => left; rw [hc] at hu; simp only [joinsLeft, XProg.joins, List.nil_append] at hu; simp [XState.go, joinsLeft, hu]
  | lock hc _ => left; rw [hc] at hu; simp only [joinsLeft, XProg.joins, List.nil_append] at hu; simp [XState.go, joinsLeft, hu]
  | whileEnd hc _ => left; rw [hc] at hu; simpa [XState.go, joinsLeft, XProg.joins] using hu
  | whileBody hc _ => left; rw [hc] at hu; simp only [joinsLeft, XProg.joins, List.nil_append] at hu; simp [XState.go, joinsLeft, hu]
  | ifEnd hc _ => left; rw [hc] at hu; simpa [XState.go, joinsLeft, XProg.joins] using hu
  | ifBody hc _ => left; rw [hc] at hu; simp only [joinsLeft, XProg.joins, List.nil_append] at hu; simp [XState.go, joinsLeft, hu]
  | retestEnd hc => left; rw [hc] at hu; simpa [XState.go, joinsLeft, XProg.joins] using hu
  | retestBody hc _ => left; rw [hc] at hu; simp only [joinsLeft, XProg.joins, List.nil_append] at hu; simp [XState.go, joinsLeft, hu]
  | posEnd hc _ => left; rw [hc] at hu; simpa [XState.go, joinsLeft, XProg.joins] using hu
  | posBody hc _ _ => left; rw [hc] at hu; simp only [joinsLeft, XProg.joins, List.nil_append] at hu; simp [XState.go, joinsLeft, hu]
  | take hc => left; rw [hc] at hu; simpa [XState.go, joinsLeft, XProg.joins] using hu
  | setExit hc => left; rw [hc] at hu; simpa [XState.go, joinsLeft, XProg.joins] using hu

/-- `should_exit_` is not set. -/
def XProg.NoExit : XProg T L → Prop
  | .seq a b => a.NoExit ∧ b.NoExit
  | .choice a b => a.NoExit ∧ b.NoExit
  | .star a => a.NoExit
  | .guarded _ b => b.NoExit
  | .whileRunning p => p.NoExit
  | .ifRunning p => p.NoExit
  | .retest c p => c.NoExit ∧ p.NoExit
  | .waitPosition p => p.NoExit
  | .setExit => False
  | _ => True

/-- `should_exit_` is not set in what is left. -/
def NoExitAll : List (XTodo T L) → Prop
  | [] => True
  | .run p :: k => p.NoExit ∧ NoExitAll k
  | .unlock _ :: k => NoExitAll k

theorem step_noExit {s s' : XState T L} {t : T} (h : XStep s t s') (he : NoExitAll (s.cont t)) : NoExitAll (s'.cont t) := by
  cases h <;> rename_i hc <;> (try rename_i hx; skip) <;> simp_all [XState.go, NoExitAll, XProg.NoExit]

/-! ## Every fair run ends -/

theorem step_nonempty {s s' : XState T L} {t : T} (h : XStep s t s') : s.cont t ≠ [] := by
  cases h <;> rename_i hc <;> (try rename_i hx; skip) <;> simp_all

/-- A step changes only the first thing a thread has to do. -/
theorem step_suffix {s s' : XState T L} {t : T} {x : XTodo T L} {rest : List (XTodo T L)} (hn : XStep s t s') (hpre : s.cont t = x :: rest) :
    ∃ front, s'.cont t = front ++ rest := by
  cases hn with
  | skip hc => rw [hpre] at hc; cases hc; exact ⟨[], by simp [XState.go]⟩
  | @seq a b k hc => rw [hpre] at hc; cases hc; exact ⟨[.run a, .run b], by simp [XState.go]⟩
  | @left a b k hc => rw [hpre] at hc; cases hc; exact ⟨[.run a], by simp [XState.go]⟩
  | @right a b k hc => rw [hpre] at hc; cases hc; exact ⟨[.run b], by simp [XState.go]⟩
  | stop hc => rw [hpre] at hc; cases hc; exact ⟨[], by simp [XState.go]⟩
  | @again a k hc => rw [hpre] at hc; cases hc; exact ⟨[.run a, .run (.star a)], by simp [XState.go]⟩
  | @lock l b k hc _ => rw [hpre] at hc; cases hc; exact ⟨[.run b, .unlock l], by simp [XState.go]⟩
  | unlock hc => rw [hpre] at hc; cases hc; exact ⟨[], by simp [XState.go]⟩
  | whileEnd hc _ => rw [hpre] at hc; cases hc; exact ⟨[], by simp [XState.go]⟩
  | @whileBody a k hc _ => rw [hpre] at hc; cases hc; exact ⟨[.run a, .run (.whileRunning a)], by simp [XState.go]⟩
  | ifEnd hc _ => rw [hpre] at hc; cases hc; exact ⟨[], by simp [XState.go]⟩
  | @ifBody a k hc _ => rw [hpre] at hc; cases hc; exact ⟨[.run a], by simp [XState.go]⟩
  | retestEnd hc => rw [hpre] at hc; cases hc; exact ⟨[], by simp [XState.go]⟩
  | @retestBody c a k hc _ => rw [hpre] at hc; cases hc; exact ⟨[.run a, .run c, .run (.retest c a)], by simp [XState.go]⟩
  | posEnd hc _ => rw [hpre] at hc; cases hc; exact ⟨[], by simp [XState.go]⟩
  | @posBody a k hc _ _ => rw [hpre] at hc; cases hc; exact ⟨[.run a, .run (.waitPosition a)], by simp [XState.go]⟩
  | take hc => rw [hpre] at hc; cases hc; exact ⟨[], by simp [XState.go]⟩
  | setExit hc => rw [hpre] at hc; cases hc; exact ⟨[], by simp [XState.go]⟩
  | join hc _ => rw [hpre] at hc; cases hc; exact ⟨[], by simp [XState.go]⟩

/-- A property of what thread `t` has left that all its steps keep holds in all reachable states. -/
theorem reach_cont {progs : T → XProg T L} (t : T) (P : List (XTodo T L) → Prop) (h0 : P [.run (progs t)])
    (hs : ∀ s s' : XState T L, XStep s t s' → P (s.cont t) → P (s'.cont t)) {s : XState T L} (h : XReach progs s) : P (s.cont t) := by
  induction h with
  | start => exact h0
  | @step s a s' _ hn ih =>
    cases a with
    | thread u =>
      by_cases hu : t = u
      · subst hu; exact hs _ _ hn ih
      · rw [step_other hn hu]; exact ih
    | position => cases hn; exact ih
    | notOk => cases hn; exact ih
    | idle => cases hn; exact ih

theorem step_joined {s s' : XState T L} {t u : T} (h : XStep s t s') (hj : s.joined u = true) : s'.joined u = true := by
  cases h with
  | @join v k hc hd =>
    show Function.update s.joined v true u = true
    by_cases huv : u = v
    · subst huv; simp
    · simpa [huv] using hj
  | _ => exact hj

/-- Everything that thread `d` joins is joined and has ended, or is still to be joined. -/
theorem reach_joined {progs : T → XProg T L} (d : T) {s : XState T L} (h : XReach progs s) :
    ∀ u ∈ (progs d).joins, u ∈ joinsLeft (s.cont d) ∨ (s.joined u = true ∧ s.cont u = []) := by
  induction h with
  | start => intro u hu; left; simpa [xInit, joinsLeft] using hu
  | @step s a s' _ hn ih =>
    intro u hu
    cases a with
    | thread t =>
      have keep : s.cont u = [] → s'.cont u = [] := by
        intro he
        by_cases hut : u = t
        · subst hut; exact absurd he (step_nonempty hn)
        · rw [step_other hn hut]; exact he
      rcases ih u hu with h | ⟨h1, h2⟩
      · by_cases ht : d = t
        · subst ht
          rcases step_joins hn u h with h | ⟨h1, h2⟩
          · exact Or.inl h
          · exact Or.inr ⟨h1, keep h2⟩
        · left; rw [step_other hn ht]; exact h
      · exact Or.inr ⟨step_joined hn h1, keep h2⟩
    | position => cases hn; exact ih u hu
    | notOk => cases hn; exact ih u hu
    | idle => cases hn; exact ih u hu

/-- The hypotheses of `fair_end`: an order of the mutexes, and threads `J` that end with `should_exit_`, of which only `d` joins, and only others of them. -/
structure Closing (progs : T → XProg T L) (rank : L → ℕ) (J : Finset T) (d : T) : Prop where
  ordered : ∀ t, (progs t).erase.Ordered rank []
  ends : ∀ t ∈ J, (progs t).Ends
  noJoin : ∀ t ∈ J, t ≠ d → (progs t).NoJoin
  joins : (progs d).JoinsIn fun u => u ∈ J ∧ u ≠ d

theorem held_erase_cons (x : XTodo T L) (k : List (XTodo T L)) (h : heldOf ((x :: k).map XTodo.erase) = []) : heldOf (k.map XTodo.erase) = [] := by
  cases x with
  | run p => exact h
  | unlock l => simp [XTodo.erase, heldOf] at h

/-- In a reachable state with unfinished threads in `J`, one of them can take a step as soon as a certain mutex (if any) is not owned by a thread outside `J`; until it does so,
no thread of `J` owns that mutex. -/
theorem progress_or_wait {progs : T → XProg T L} {rank : L → ℕ} {J : Finset T} {d : T} (hc : Closing progs rank J d) {s : XState T L} (h : XReach progs s)
    (hn : ∃ t ∈ J, s.cont t ≠ []) : ∃ t ∈ J, s.cont t ≠ [] ∧ ((∀ s' : XState T L, s'.cont t = s.cont t → (∀ u ∈ J, s'.cont u = s.cont u) → Enabled s' t) ∨
      ∃ l b k, s.cont t = .run (.guarded l b) :: k ∧ ∀ u ∈ J, s.owner l ≠ some u) := by
  classical
  by_contra hno
  push Not at hno
  have hreach := reach_erase h
  have hinv := lockInv_reach hc.ordered hreach
  have hj : JoinsAll (fun u => u ∈ J ∧ u ≠ d) (s.cont d) := by
    refine reach_cont d _ ⟨Or.inr ⟨hc.joins, rfl⟩, trivial⟩ (fun s s' hs hk => step_joinsAll hs hk) h
  have hnj : ∀ t ∈ J, t ≠ d → NoJoinAll (s.cont t) := fun t ht htd =>
    reach_cont t _ ⟨hc.noJoin t ht htd, trivial⟩ (fun s s' hs hk => step_noJoin hs hk) h
  have hends : ∀ t ∈ J, EndsAll (s.cont t) := fun t ht =>
    reach_cont t _ ⟨hc.ends t ht, trivial⟩ (fun s s' hs hk => step_ends hs hk) h
  -- every unfinished thread waits for a mutex of `J`, or joins
  have hblock : ∀ t ∈ J, s.cont t ≠ [] → (∃ l b k, s.cont t = .run (.guarded l b) :: k ∧ ∃ u ∈ J, s.owner l = some u) ∨
      (∃ u k, s.cont t = .run (.join u) :: k ∧ (u ∈ J → s.cont u ≠ [])) := by
    intro t ht htn
    obtain ⟨h1, h2⟩ := hno t ht htn
    obtain ⟨s', e1, e2, hdis⟩ := h1
    have en : ∀ {x}, XStep s' t x → False := fun hx => hdis ⟨_, hx⟩
    rcases hcc : s.cont t with _ | ⟨x, k⟩
    · exact absurd hcc htn
    · rw [hcc] at e1
      cases x with
      | unlock l => exact (en (.unlock e1)).elim
      | run p =>
        cases p with
        | skip => exact (en (.skip e1)).elim
        | seq a b => exact (en (.seq e1)).elim
        | choice a b => exact (en (.left e1)).elim
        | star a => exact (en (.stop e1)).elim
        | guarded l b =>
          left
          obtain ⟨u, hu, ho⟩ := h2 l b k hcc
          exact ⟨l, b, k, rfl, u, hu, ho⟩
        | whileRunning p =>
          rcases hb : s'.exit with _ | _
          · exact (en (.whileBody e1 hb)).elim
          · exact (en (.whileEnd e1 hb)).elim
        | ifRunning p =>
          rcases hb : s'.exit with _ | _
          · exact (en (.ifBody e1 hb)).elim
          · exact (en (.ifEnd e1 hb)).elim
        | retest c p => exact (en (.retestEnd e1)).elim
        | waitPosition p => have := hends t ht; rw [hcc] at this; exact this.1.elim
        | takePosition => exact (en (.take e1)).elim
        | setExit => exact (en (.setExit e1)).elim
        | join u =>
          right
          refine ⟨u, k, rfl, fun huJ hu => en (.join e1 ?_)⟩
          rw [e2 u huJ]; exact hu
  -- a thread that owns a mutex does not join
  have hown : ∀ t ∈ J, ∀ l, s.owner l = some t → ∀ u k, s.cont t ≠ .run (.join u) :: k := by
    intro t ht l hl u k hk
    have hh : l ∈ heldOf ((s.cont t).map XTodo.erase) := (hinv.2.2 l t).1 hl
    by_cases htd : t = d
    · subst htd
      rw [hk] at hj hh
      rcases hj.1 with h | h
      · exact h
      · have : heldOf (k.map XTodo.erase) = [] := h.2
        rw [List.map_cons] at hh
        change l ∈ heldOf (k.map XTodo.erase) at hh
        rw [this] at hh
        cases hh
    · have := hnj t ht htd
      rw [hk] at this
      exact this.1
  obtain ⟨S, hS⟩ : ∃ S, S = J.filter fun t => ∃ l b k, s.cont t = .run (.guarded l b) :: k ∧ ∃ u ∈ J, s.owner l = some u := ⟨_, rfl⟩
  by_cases hSe : S.Nonempty
  · refine no_deadlock hc.ordered hreach S hSe ?_
    intro t ht
    rw [hS, Finset.mem_filter] at ht
    obtain ⟨htJ, l, b, k, hk, u, hu, ho⟩ := ht
    refine ⟨l, u, ?_, ⟨⟨b.erase, k.map XTodo.erase, ?_⟩, ho⟩⟩
    · rw [hS, Finset.mem_filter]
      refine ⟨hu, ?_⟩
      have hun : s.cont u ≠ [] := by
        intro he
        have := (hinv.2.2 l u).1 ho
        change l ∈ heldOf ((s.cont u).map XTodo.erase) at this
        rw [he] at this
        cases this
      rcases hblock u hu hun with h | ⟨v, k', hk', -⟩
      · exact h
      · exact absurd hk' (hown u hu l ho v k')
    · show (s.cont t).map XTodo.erase = _
      rw [hk]; rfl
  · have hnone : ∀ t ∈ J, s.cont t ≠ [] → ∃ u k, s.cont t = .run (.join u) :: k ∧ (u ∈ J → s.cont u ≠ []) := by
      intro t ht htn
      rcases hblock t ht htn with h | h
      · exact absurd ⟨t, by rw [hS, Finset.mem_filter]; exact ⟨ht, h⟩⟩ hSe
      · exact h
    have honly : ∀ t ∈ J, s.cont t ≠ [] → t = d := by
      intro t ht htn
      by_contra htd
      obtain ⟨u, k, hk, -⟩ := hnone t ht htn
      have := hnj t ht htd
      rw [hk] at this
      exact this.1
    obtain ⟨t, ht, htn⟩ := hn
    obtain rfl := honly t ht htn
    obtain ⟨u, k, hk, hu⟩ := hnone t ht htn
    rw [hk] at hj
    rcases hj.1 with h | h
    · exact h
    · have hjo : u ∈ J ∧ u ≠ t := h.1
      exact hjo.2 (honly u hjo.1 (hu hjo.1))

theorem Run.reach {progs : T → XProg T L} (r : Run progs) (i : ℕ) : XReach progs (r.state i) := by
  induction i with
  | zero => exact r.start
  | succ i ih => exact ih.step (r.next i)

/-- In a fair run in which `should_exit_` is set and the other threads do not keep mutexes for ever, all threads of `J` end. -/
theorem fair_end {progs : T → XProg T L} {rank : L → ℕ} {J : Finset T} {d : T} (hc : Closing progs rank J d) (r : Run progs) (hf : r.Fair J)
    (ho : r.OthersRelease J) (hx : ∃ i, (r.state i).exit = true) : ∃ N, ∀ i, N ≤ i → ∀ t ∈ J, (r.state i).cont t = [] := by
  classical
  obtain ⟨i0, hi0⟩ := hx
  have hexit : ∀ i, i0 ≤ i → (r.state i).exit = true := by
    intro i hi
    induction i, hi using Nat.le_induction with
    | base => exact hi0
    | succ i hi ih =>
      have := r.next i
      cases ha : r.act i with
      | thread t => rw [ha] at this; exact step_exit this ih
      | position => rw [ha] at this; rw [show r.state (i + 1) = _ from this]; exact ih
      | notOk => rw [ha] at this; rw [show r.state (i + 1) = _ from this]; exact ih
      | idle => rw [ha] at this; rw [show r.state (i + 1) = _ from this]; exact ih
  have hends : ∀ i, ∀ t ∈ J, EndsAll ((r.state i).cont t) := fun i t ht =>
    reach_cont t _ ⟨hc.ends t ht, trivial⟩ (fun s s' hs hk => step_ends hs hk) (r.reach i)
  -- conts change only by own steps
  have hsame : ∀ i t, r.act i ≠ .thread t → (r.state (i + 1)).cont t = (r.state i).cont t := by
    intro i t hne
    have := r.next i
    cases ha : r.act i with
    | thread u =>
      rw [ha] at this
      exact step_other this (fun h => hne (by rw [ha, h]))
    | position => rw [ha] at this; rw [show r.state (i + 1) = _ from this]
    | notOk => rw [ha] at this; rw [show r.state (i + 1) = _ from this]
    | idle => rw [ha] at this; rw [show r.state (i + 1) = _ from this]
  have hdec : ∀ i, i0 ≤ i → ∀ t, r.act i = .thread t → t ∈ J →
      ∑ u ∈ J, stepsLeft ((r.state (i + 1)).cont u) < ∑ u ∈ J, stepsLeft ((r.state i).cont u) := by
    intro i hi t ha ht
    have hs := r.next i
    rw [ha] at hs
    refine Finset.sum_lt_sum ?_ ⟨t, ht, step_left hs (hends i t ht) (hexit i hi)⟩
    intro u hu
    by_cases hut : u = t
    · subst hut; exact (step_left hs (hends i u hu) (hexit i hi)).le
    · rw [step_other hs hut]
  -- a point after which no thread of `J` takes a step
  have hmono : ∀ i, i0 ≤ i → ∑ u ∈ J, stepsLeft ((r.state (i + 1)).cont u) ≤ ∑ u ∈ J, stepsLeft ((r.state i).cont u) := by
    intro i hi
    by_cases h : ∃ t ∈ J, r.act i = .thread t
    · obtain ⟨t, ht, ha⟩ := h; exact (hdec i hi t ha ht).le
    · push Not at h
      refine Finset.sum_le_sum fun u hu => ?_
      rw [hsame i u (h u hu)]
  have hmono' : ∀ N, i0 ≤ N → ∀ i, N ≤ i → ∑ u ∈ J, stepsLeft ((r.state i).cont u) ≤ ∑ u ∈ J, stepsLeft ((r.state N).cont u) := by
    intro N hN i hi
    induction i, hi using Nat.le_induction with
    | base => exact le_refl _
    | succ i hi ih => exact (hmono i (le_trans hN hi)).trans ih
  obtain ⟨N, hN, hquiet⟩ : ∃ N, i0 ≤ N ∧ ∀ i, N ≤ i → ∀ t ∈ J, r.act i ≠ .thread t := by
    have hex : ∃ v, ∃ i, i0 ≤ i ∧ ∑ u ∈ J, stepsLeft ((r.state i).cont u) = v := ⟨_, i0, le_refl _, rfl⟩
    obtain ⟨N, hN, hv⟩ := Nat.find_spec hex
    refine ⟨N, hN, fun i hi t ht ha => ?_⟩
    have h1 := hdec i (le_trans hN hi) t ha ht
    have h2 := hmono' N hN i hi
    rw [hv] at h2
    exact Nat.find_min hex (lt_of_lt_of_le h1 h2) ⟨i + 1, by omega, rfl⟩
  have hfrozen : ∀ i, N ≤ i → ∀ t ∈ J, (r.state i).cont t = (r.state N).cont t := by
    intro i hi t ht
    induction i, hi using Nat.le_induction with
    | base => rfl
    | succ i hi ih => rw [hsame i t (hquiet i hi t ht), ih]
  refine ⟨N, ?_⟩
  by_contra hcon
  push Not at hcon
  obtain ⟨i1, hi1, t1, ht1, hne⟩ := hcon
  rw [hfrozen i1 hi1 t1 ht1] at hne
  obtain ⟨t, ht, -, hcase⟩ := progress_or_wait hc (r.reach N) ⟨t1, ht1, hne⟩
  have hstep : ∀ M, ∃ i, M ≤ i ∧ Enabled (r.state i) t := by
    intro M
    rcases hcase with h | ⟨l, b, k, hk, hl⟩
    · exact ⟨max M N, le_max_left _ _, h _ (hfrozen _ (le_max_right _ _) t ht) fun u hu => hfrozen _ (le_max_right _ _) u hu⟩
    · obtain ⟨i, hi, hoi⟩ := ho l (max M N)
      have hNi : N ≤ i := le_trans (le_max_right _ _) hi
      refine ⟨i, le_trans (le_max_left _ _) hi, ?_⟩
      have hfree : (r.state i).owner l = none := by
        rcases hoo : (r.state i).owner l with _ | u
        · rfl
        · exfalso
          have huJ := hoi u hoo
          have inv1 := lockInv_reach hc.ordered (reach_erase (r.reach i))
          have inv2 := lockInv_reach hc.ordered (reach_erase (r.reach N))
          have h1 : l ∈ heldOf (((r.state i).cont u).map XTodo.erase) := (inv1.2.2 l u).1 hoo
          rw [hfrozen i hNi u huJ] at h1
          exact hl u huJ ((inv2.2.2 l u).2 h1)
      exact ⟨_, .lock (by rw [hfrozen i hNi t ht, hk]) hfree⟩
  obtain ⟨i, hi, ha⟩ := hf t ht hstep N
  exact hquiet i hi t ht ha

/-! ## Executable steps, for witnesses -/

/-- One step of thread `t`, with `b` for choices and loop exits. -/
def xExec (s : XState T L) (t : T) (b : Bool) : Option (XState T L) :=
  match s.cont t with
  | [] => none
  | .unlock l :: k => some { s.go t k with owner := Function.update s.owner l none }
  | .run .skip :: k => some (s.go t k)
  | .run (.seq p q) :: k => some (s.go t (.run p :: .run q :: k))
  | .run (.choice p q) :: k => some (s.go t (.run (if b then p else q) :: k))
  | .run (.star p) :: k => some (s.go t (if b then .run p :: .run (.star p) :: k else k))
  | .run (.guarded l p) :: k =>
    if s.owner l = none then some { s.go t (.run p :: .unlock l :: k) with owner := Function.update s.owner l (some t) } else none
  | .run (.whileRunning p) :: k => some (s.go t (if s.exit = true then k else .run p :: .run (.whileRunning p) :: k))
  | .run (.ifRunning p) :: k => some (s.go t (if s.exit = true then k else .run p :: k))
  | .run (.retest c p) :: k => some (s.go t (if s.exit = false ∧ b = true then .run p :: .run c :: .run (.retest c p) :: k else k))
  | .run (.waitPosition p) :: k => some (s.go t (if s.pos = true ∨ s.ok = false then k else .run p :: .run (.waitPosition p) :: k))
  | .run .takePosition :: k => some { s.go t k with pos := false }
  | .run .setExit :: k => some { s.go t k with exit := true }
  | .run (.join u) :: k => if (s.cont u).isEmpty then some { s.go t k with joined := Function.update s.joined u true } else none

theorem xExec_step {s s' : XState T L} {t : T} {b : Bool} (h : xExec s t b = some s') : XStep s t s' := by
  unfold xExec at h
  split at h
  · cases h
  · rename_i hc; cases h; exact .unlock hc
  · rename_i hc; cases h; exact .skip hc
  · rename_i hc; cases h; exact .seq hc
  · rename_i hc; cases h
    cases b
    · exact .right hc
    · exact .left hc
  · rename_i hc; cases h
    cases b
    · exact .stop hc
    · exact .again hc
  · rename_i l p k hc
    by_cases ho : s.owner l = none
    · rw [if_pos ho] at h; cases h; exact .lock hc ho
    · rw [if_neg ho] at h; cases h
  · rename_i hc; cases h
    by_cases hx : s.exit = true
    · rw [if_pos hx]; exact .whileEnd hc hx
    · rw [if_neg hx]; exact .whileBody hc (by simpa using hx)
  · rename_i hc; cases h
    by_cases hx : s.exit = true
    · rw [if_pos hx]; exact .ifEnd hc hx
    · rw [if_neg hx]; exact .ifBody hc (by simpa using hx)
  · rename_i hc; cases h
    by_cases hx : s.exit = false ∧ b = true
    · rw [if_pos hx]; exact .retestBody hc hx.1
    · rw [if_neg hx]; exact .retestEnd hc
  · rename_i hc; cases h
    by_cases hx : s.pos = true ∨ s.ok = false
    · rw [if_pos hx]; exact .posEnd hc hx
    · rw [if_neg hx]
      push Not at hx
      exact .posBody hc (by simpa using hx.1) (by simpa using hx.2)
  · rename_i hc; cases h; exact .take hc
  · rename_i hc; cases h; exact .setExit hc
  · rename_i u k hc
    by_cases ho : (s.cont u).isEmpty = true
    · rw [if_pos ho] at h; cases h; exact .join hc (by simpa using ho)
    · rw [if_neg ho] at h; cases h

/-- A schedule: threads, and choices. Whoever cannot take a step is skipped. -/
def xTrace (s : XState T L) : List (T × Bool) → XState T L
  | [] => s
  | (t, b) :: l => xTrace ((xExec s t b).getD s) l

theorem xTrace_reach {progs : T → XProg T L} (l : List (T × Bool)) : ∀ {s}, XReach progs s → XReach progs (xTrace s l) := by
  induction l with
  | nil => exact id
  | cons x l ih =>
    intro s h
    apply ih
    rcases he : xExec s x.1 x.2 with _ | s'
    · simpa using h
    · exact h.step (a := .thread x.1) (xExec_step he)

/-- The run of a schedule, idle afterwards. -/
def scheduleRun (progs : T → XProg T L) (l : List (T × Bool)) : Run progs where
  state i := xTrace (xInit progs) (l.take i)
  act i := match l[i]? with
    | some (t, b) => if (xExec (xTrace (xInit progs) (l.take i)) t b).isSome then .thread t else .idle
    | none => .idle
  start := .start
  next i := by
    have happ : ∀ (l1 l2 : List (T × Bool)) (s : XState T L), xTrace s (l1 ++ l2) = xTrace (xTrace s l1) l2 := by
      intro l1
      induction l1 with
      | nil => intro l2 s; rfl
      | cons x l1 ih => intro l2 s; exact ih l2 _
    rcases hl : l[i]? with _ | ⟨t, b⟩
    · have : l.length ≤ i := List.getElem?_eq_none_iff.mp hl
      rw [List.take_of_length_le this, List.take_of_length_le (by omega)]
      rfl
    · have : l.take (i + 1) = l.take i ++ [(t, b)] := by rw [List.take_add_one, hl]; rfl
      rw [this, happ]
      dsimp only [xTrace]
      rcases he : xExec (xTrace (xInit progs) (l.take i)) t b with _ | s'
      · rfl
      · exact xExec_step he

end

/-! ## C99: the local planner nodelet -/

open XProg

/-- The destructor and the threads of the nodelet. -/
def nodeletThreads (n : ℕ) : Finset Thr := {.destructor, .worker, .tfListener} ∪ (Finset.range n).image .transform

theorem mem_nodeletThreads (n : ℕ) (t : Thr) :
    t ∈ nodeletThreads n ↔ t = .destructor ∨ t = .worker ∨ t = .tfListener ∨ ∃ i, i < n ∧ t = .transform i := by
  simp only [nodeletThreads, Finset.mem_union, Finset.mem_insert, Finset.mem_singleton, Finset.mem_image, Finset.mem_range]
  constructor
  · rintro ((h | h | h) | ⟨i, h1, h2⟩)
    · exact Or.inl h
    · exact Or.inr (Or.inl h)
    · exact Or.inr (Or.inr (Or.inl h))
    · exact Or.inr (Or.inr (Or.inr ⟨i, h1, h2.symm⟩))
  · rintro (h | h | h | ⟨i, h1, h2⟩)
    · exact Or.inl (Or.inl h)
    · exact Or.inl (Or.inr (Or.inl h))
    · exact Or.inl (Or.inr (Or.inr h))
    · exact Or.inr ⟨i, h1, h2.symm⟩

theorem xordered_seqs {T L : Type} [DecidableEq T] [DecidableEq L] (rank : L → ℕ) (held : List L) (ps : List (XProg T L)) :
    (seqs ps).erase.Ordered rank held ↔ ∀ p ∈ ps, p.erase.Ordered rank held := by
  induction ps with
  | nil => simp [seqs, XProg.erase, LockProg.Ordered]
  | cons p ps ih => simp [seqs, XProg.erase, LockProg.Ordered, ih]

theorem ends_seqs {T L : Type} (ps : List (XProg T L)) : (seqs ps).Ends ↔ ∀ p ∈ ps, p.Ends := by
  induction ps with
  | nil => simp [seqs, XProg.Ends]
  | cons p ps ih => simp [seqs, XProg.Ends, ih]

theorem noJoin_seqs {T L : Type} (ps : List (XProg T L)) : (seqs ps).NoJoin ↔ ∀ p ∈ ps, p.NoJoin := by
  induction ps with
  | nil => simp [seqs, XProg.NoJoin]
  | cons p ps ih => simp [seqs, XProg.NoJoin, ih]

theorem joinsIn_seqs {T L : Type} (J : T → Prop) (ps : List (XProg T L)) : (seqs ps).JoinsIn J ↔ ∀ p ∈ ps, p.JoinsIn J := by
  induction ps with
  | nil => simp [seqs, XProg.JoinsIn, XProg.NoJoin]
  | cons p ps ih => simp [seqs, XProg.JoinsIn, ih]

theorem joins_seqs {T L : Type} (ps : List (XProg T L)) : (seqs ps).joins = ps.flatMap XProg.joins := by
  induction ps with
  | nil => rfl
  | cons p ps ih => simp [seqs, XProg.joins, ih]

theorem xNodelet_closing (n m : ℕ) : Closing (xNodelet n m) mtxRank (nodeletThreads n) .destructor := by
  refine ⟨?_, ?_, ?_, ?_⟩
  · intro t
    cases t with
    | transform i =>
      show (if i < n then xTransform i else XProg.skip).erase.Ordered mtxRank []
      split_ifs
      · simp [xTransform, XProg.erase, LockProg.Ordered, xordered_seqs, once, mtxRank]
      · trivial
    | _ => simp [xNodelet, xWorker, xCount, xCmdLoop, xGlobalCallback, xTfListener, xReconfigure, xParamPoll, xDestructor, XProg.erase, LockProg.Ordered,
        xordered_seqs, once, mtxRank]
  · intro t ht
    rw [mem_nodeletThreads] at ht
    rcases ht with rfl | rfl | rfl | ⟨i, hi, rfl⟩
    · simp [xNodelet, xDestructor, XProg.Ends, ends_seqs, once]
    · simp [xNodelet, xWorker, xCount, XProg.Ends, ends_seqs, once]
    · simp [xNodelet, xTfListener, XProg.Ends, ends_seqs, once]
    · simp [xNodelet, hi, xTransform, XProg.Ends, ends_seqs, once]
  · intro t ht htd
    rw [mem_nodeletThreads] at ht
    rcases ht with rfl | rfl | rfl | ⟨i, hi, rfl⟩
    · exact absurd rfl htd
    · simp [xNodelet, xWorker, xCount, XProg.NoJoin, noJoin_seqs, once]
    · simp [xNodelet, xTfListener, XProg.NoJoin, noJoin_seqs, once]
    · simp [xNodelet, hi, xTransform, XProg.NoJoin, noJoin_seqs, once]
  · simp [xNodelet, xDestructor, XProg.JoinsIn, XProg.NoJoin, joinsIn_seqs, once, mem_nodeletThreads]

theorem xDestructor_joins (n : ℕ) (t : Thr) (ht : t ∈ nodeletThreads n) (hd : t ≠ .destructor) : t ∈ (xDestructor n).joins := by
  rw [mem_nodeletThreads] at ht
  simp only [xDestructor, XProg.joins, joins_seqs, once]
  rcases ht with rfl | rfl | rfl | ⟨i, hi, rfl⟩
  · exact absurd rfl hd
  · simp [XProg.joins]
  · simp [XProg.joins]
  · simp [XProg.joins, joins_seqs, hi]

/-- **C99, unloading the nodelet.** With any number of cameras, under every schedule in which a thread of the nodelet that can go on again and again does so, and in
which no other thread of the process keeps a mutex for ever: once the destructor has begun, it returns, and then the worker, the transform
thread and the threads of all cameras have ended and have been joined. -/
theorem C99_unload_partial (n m : ℕ) (r : Run (xNodelet n m)) (hf : r.Fair (nodeletThreads n)) (ho : r.OthersRelease (nodeletThreads n))
    (hx : ∃ i, (r.state i).exit = true) :
    ∃ N, ∀ i, N ≤ i → (r.state i).cont .destructor = [] ∧ ∀ t, (t = .worker ∨ t = .tfListener ∨ ∃ c, c < n ∧ t = .transform c) →
      (r.state i).cont t = [] ∧ (r.state i).joined t = true := by
  obtain ⟨N, hN⟩ := fair_end (xNodelet_closing n m) r hf ho hx
  refine ⟨N, fun i hi => ?_⟩
  have hd : (r.state i).cont .destructor = [] := hN i hi .destructor (by simp [mem_nodeletThreads])
  refine ⟨hd, fun t ht => ?_⟩
  have hJ : t ∈ nodeletThreads n := by rw [mem_nodeletThreads]; exact Or.inr ht
  refine ⟨hN i hi t hJ, ?_⟩
  have htd : t ≠ .destructor := by rcases ht with rfl | rfl | ⟨c, -, rfl⟩ <;> simp
  rcases reach_joined Thr.destructor (r.reach i) t (xDestructor_joins n t hJ htd) with h | h
  · rw [hd] at h; cases h
  · exact h.1

/-- The threads never end before the destructor begins: while `should_exit_` is not set, the worker has something to do. -/
theorem C99_runs_until_exit (n m : ℕ) (s : XState Thr Mtx) (h : XReach (xNodelet n m) s) (hx : s.exit = false) :
    s.cont .worker ≠ [] ∧ s.cont .tfListener ≠ [] ∧ ∀ c, c < n → s.cont (.transform c) ≠ [] := by
  have key : ∀ (t : Thr) (p : XProg Thr Mtx), xNodelet n m t = .whileRunning p → ∀ s, XReach (xNodelet n m) s → s.exit = false →
      ∃ pre, s.cont t = pre ++ [.run (.whileRunning p)] := by
    intro t p hp s h
    induction h with
    | start => intro _; exact ⟨[], by simp [xInit, hp]⟩
    | @step s a s' hr hn ih =>
      intro hx'
      cases a with
      | thread u =>
        have hx : s.exit = false := by
          rcases he : s.exit with _ | _
          · rfl
          · rw [step_exit hn he] at hx'; cases hx'
        obtain ⟨pre, hpre⟩ := ih hx
        by_cases hu : t = u
        · subst hu
          rcases pre with _ | ⟨x, pre⟩
          · rw [List.nil_append] at hpre
            cases hn <;> rename_i hc <;> (try rename_i hc'; skip) <;> simp_all [XState.go]
            exact ⟨[.run p], rfl⟩
          · rw [List.cons_append] at hpre
            have hstep := step_suffix hn hpre
            obtain ⟨front, hf⟩ := hstep
            exact ⟨front ++ pre, by rw [hf, List.append_assoc]⟩
        · rw [step_other hn hu]; exact ⟨pre, hpre⟩
      | position => cases hn; exact ih hx'
      | notOk => cases hn; exact ih hx'
      | idle => cases hn; exact ih hx'
  refine ⟨?_, ?_, ?_⟩
  · obtain ⟨pre, hpre⟩ := key .worker _ rfl s h hx
    rw [hpre]; simp
  · obtain ⟨pre, hpre⟩ := key .tfListener _ rfl s h hx
    rw [hpre]; simp
  · intro c hc
    obtain ⟨pre, hpre⟩ := key (.transform c) _ (by simp only [xNodelet, if_pos hc]; rfl) s h hx
    rw [hpre]; simp

/-! ### What goes wrong -/

/-- Nobody joins the parameter thread of the avoidance node. -/
theorem paramPoll_not_joined (n m : ℕ) (s : XState Thr Mtx) (h : XReach (xNodelet n m) s) : s.joined .paramPoll = false := by
  have hnj : ∀ t, t ≠ .destructor → ∀ s, XReach (xNodelet n m) s → NoJoinAll (s.cont t) := by
    intro t ht s h
    refine reach_cont t _ ⟨?_, trivial⟩ (fun s s' hs hk => step_noJoin hs hk) h
    cases t with
    | transform i =>
      show (if i < n then xTransform i else XProg.skip).NoJoin
      split_ifs
      · simp [xTransform, XProg.NoJoin, noJoin_seqs, once]
      · trivial
    | destructor => exact absurd rfl ht
    | _ => simp [xNodelet, xWorker, xCount, xCmdLoop, xGlobalCallback, xTfListener, xReconfigure, xParamPoll, XProg.NoJoin, noJoin_seqs, once]
  have hd : ∀ s, XReach (xNodelet n m) s → JoinsAll (fun u => u ≠ Thr.paramPoll) (s.cont .destructor) := by
    intro s h
    refine reach_cont Thr.destructor _ ⟨Or.inr ⟨?_, rfl⟩, trivial⟩ (fun s s' hs hk => step_joinsAll hs hk) h
    simp [xNodelet, xDestructor, XProg.JoinsIn, XProg.NoJoin, joinsIn_seqs, once]
  induction h with
  | start => rfl
  | @step s a s' hr hn ih =>
    cases a with
    | thread t =>
      cases hn with
      | @join u k hc _ =>
        show Function.update s.joined u true .paramPoll = false
        have hu : Thr.paramPoll ≠ u := by
          by_cases ht : t = .destructor
          · subst ht
            have := hd s hr
            rw [hc] at this
            rcases this.1 with h | h
            · exact absurd h id
            · exact (show u ≠ Thr.paramPoll from h.1).symm
          · have := hnj t ht s hr
            rw [hc] at this
            exact absurd this.1 id
        rw [Function.update_of_ne hu]
        exact ih
      | _ => exact ih
    | position => cases hn; exact ih
    | notOk => cases hn; exact ih
    | idle => cases hn; exact ih

/-- **C99, violated: unloading kills the process.** Whenever the destructor returns, the parameter thread of the avoidance node has not been joined, so that destroying the
members calls `std::terminate`; no other thread of the nodelet would cause this. -/
theorem C99_terminates_violated (n m : ℕ) (s : XState Thr Mtx) (h : XReach (xNodelet n m) s) (hd : s.cont .destructor = []) :
    terminates n s = true ∧ ∀ t ∈ memberThreads n, s.joined t = false ↔ t = .paramPoll := by
  have hp := paramPoll_not_joined n m s h
  constructor
  · unfold terminates
    rw [List.any_eq_true]
    exact ⟨.paramPoll, by simp [memberThreads], by rw [hp]; rfl⟩
  · intro t ht
    constructor
    · intro hj
      by_contra hne
      have hJ : t ∈ nodeletThreads n := by
        rw [mem_nodeletThreads]
        simp only [memberThreads, List.mem_cons, List.mem_map, List.mem_range] at ht
        rcases ht with h | h | h | ⟨i, hi, h⟩
        · exact Or.inr (Or.inl h)
        · exact Or.inr (Or.inr (Or.inl h))
        · exact absurd h hne
        · exact Or.inr (Or.inr (Or.inr ⟨i, hi, h.symm⟩))
      have htd : t ≠ .destructor := by
        rintro rfl
        simp [memberThreads] at ht
      rcases reach_joined Thr.destructor h t (xDestructor_joins n t hJ htd) with h' | h'
      · rw [hd] at h'; cases h'
      · rw [h'.1] at hj; cases hj
    · rintro rfl; exact hp

/-- Reachable without a position message and with `ros::ok()`. -/
inductive NoPosition {T L : Type} [DecidableEq T] [DecidableEq L] : XState T L → XState T L → Prop
  | refl (s) : NoPosition s s
  | step {s t s' s''} : NoPosition s s' → XStep s' t s'' → NoPosition s s''

/-- The command loop waits for a position with the waypoint mutex, for which the worker waits, which the destructor has still to join. -/
def Trapped (s : XState Thr Mtx) : Prop :=
  s.ok = true ∧ s.pos = false ∧ (∃ pre p rest, s.cont .cmdLoop = pre ++ .run (.waitPosition p) :: rest ∧ Mtx.waypoints ∈ heldOf (rest.map XTodo.erase)) ∧
    (∃ b k, s.cont .worker = .run (.guarded .waypoints b) :: k) ∧ Thr.worker ∈ joinsLeft (s.cont .destructor)

theorem heldOf_append {L : Type} (a b : List (Todo L)) : heldOf (a ++ b) = heldOf a ++ heldOf b := by
  induction a with
  | nil => rfl
  | cons x a ih => cases x <;> simp [heldOf, ih]

theorem trapped_step {n m : ℕ} {s s' : XState Thr Mtx} {t : Thr} (hr : XReach (xNodelet n m) s) (h : Trapped s) (hs : XStep s t s') : Trapped s' := by
  obtain ⟨h1, h2, ⟨pre, p, rest, h3, h4⟩, ⟨b, k, h5⟩, h6⟩ := h
  have hown : s.owner .waypoints = some .cmdLoop := by
    have hinv := lockInv_reach (xNodelet_closing n m).ordered (reach_erase hr)
    refine (hinv.2.2 _ _).2 ?_
    show Mtx.waypoints ∈ heldOf ((s.cont .cmdLoop).map XTodo.erase)
    rw [h3, List.map_append, heldOf_append]
    exact List.mem_append_right _ h4
  have hok : s'.ok = true := by cases hs <;> simp [XState.go, h1]
  have hpos : s'.pos = false := by cases hs <;> simp [XState.go, h2]
  have hw : s'.cont .worker = s.cont .worker := by
    by_cases ht : t = .worker
    · subst ht
      exfalso
      cases hs <;> rename_i hc <;> (try rename_i hc'; skip) <;> simp_all
    · exact step_other hs (Ne.symm ht)
  refine ⟨hok, hpos, ?_, ⟨b, k, by rw [hw, h5]⟩, ?_⟩
  · by_cases ht : t = .cmdLoop
    · subst ht
      rcases pre with _ | ⟨x, pre⟩
      · rw [List.nil_append] at h3
        refine ⟨[.run p], p, rest, ?_, h4⟩
        cases hs <;> rename_i hc <;> (try rename_i hc'; skip) <;> simp_all [XState.go]
      · obtain ⟨front, hf⟩ := step_suffix hs (show s.cont .cmdLoop = x :: (pre ++ .run (.waitPosition p) :: rest) from h3)
        exact ⟨front ++ pre, p, rest, by rw [hf, List.append_assoc], h4⟩
    · exact ⟨pre, p, rest, by rw [step_other hs (Ne.symm ht), h3], h4⟩
  · by_cases ht : t = .destructor
    · subst ht
      rcases step_joins hs _ h6 with h | ⟨-, h⟩
      · exact h
      · rw [h5] at h; cases h
    · rw [step_other hs (Ne.symm ht)]; exact h6

/-- A schedule: camera 0 delivers a cloud, the command loop begins to wait for a position, the worker plans and comes to the waypoint mutex, the destructor
begins. -/
def trapSchedule : List (Thr × Bool) :=
  List.replicate 22 (.transform 0, false) ++ List.replicate 4 (.cmdLoop, true) ++ List.replicate 26 (.worker, false) ++ List.replicate 2 (.destructor, true)

/-- `Trapped`, decided. -/
def trappedB (s : XState Thr Mtx) : Bool :=
  s.ok && !s.pos && (match s.cont .cmdLoop with
    | _ :: .run (.waitPosition _) :: rest => decide (Mtx.waypoints ∈ heldOf (rest.map XTodo.erase))
    | _ => false) && (match s.cont .worker with
    | .run (.guarded .waypoints _) :: _ => true
    | _ => false) && decide (Thr.worker ∈ joinsLeft (s.cont .destructor))

theorem trappedB_sound (s : XState Thr Mtx) (h : trappedB s = true) : Trapped s := by
  unfold trappedB at h
  simp only [Bool.and_eq_true, decide_eq_true_eq, Bool.not_eq_true'] at h
  obtain ⟨⟨⟨⟨h1, h2⟩, h3⟩, h4⟩, h5⟩ := h
  refine ⟨h1, h2, ?_, ?_, h5⟩
  · split at h3
    · rename_i x p rest hc
      exact ⟨[x], p, rest, hc, by simpa using h3⟩
    · cases h3
  · split at h4
    · rename_i b k hc
      exact ⟨b, k, hc⟩
    · cases h4

theorem trapped_forever {n m : ℕ} {s s' : XState Thr Mtx} (hr : XReach (xNodelet n m) s) (h : Trapped s) (hn : NoPosition s s') :
    XReach (xNodelet n m) s' ∧ Trapped s' := by
  induction hn with
  | refl => exact ⟨hr, h⟩
  | @step t s1 s2 _ hs ih => exact ⟨ih.1.step (a := .thread t) hs, trapped_step ih.1 ih.2 hs⟩

/-- **C99, violated: unloading can hang.** In a reachable state the destructor has begun, and as long as no position message arrives (and `ros::ok()`), it never
returns, whatever the threads do: the command loop waits for a position with the waypoint mutex locked, and the worker needs that mutex to end. -/
theorem C99_unload_hangs_violated : ∃ s, XReach (xNodelet 1 1) s ∧ s.exit = true ∧ ∀ s', NoPosition s s' → s'.cont .destructor ≠ [] := by
  have ht : Trapped (xTrace (xInit (xNodelet 1 1)) trapSchedule) := trappedB_sound _ (by decide +kernel)
  refine ⟨_, xTrace_reach trapSchedule .start, by decide +kernel, ?_⟩
  intro s' hn he
  have := (trapped_forever (xTrace_reach trapSchedule .start) ht hn).2.2.2.2.2
  rw [he] at this
  cases this

/-- A schedule in which all threads of the nodelet have begun, and then the destructor runs and they end. -/
def endSchedule : List (Thr × Bool) :=
  List.replicate 5 (.transform 0, false) ++ List.replicate 9 (.worker, true) ++ List.replicate 4 (.tfListener, false) ++ List.replicate 2 (.destructor, true) ++
  List.replicate 30 (.transform 0, false) ++ List.replicate 30 (.worker, true) ++ List.replicate 20 (.tfListener, false) ++ List.replicate 40 (.destructor, true)

/-- Non-vacuity of `C99_unload_partial`: a fair run with one camera in which the destructor is called while all threads are busy. -/
example : ∃ r : Run (xNodelet 1 1), r.Fair (nodeletThreads 1) ∧ r.OthersRelease (nodeletThreads 1) ∧ (∃ i, (r.state i).exit = true) ∧
    ∃ i, (r.state i).exit = false ∧ (r.state i).owner (.camera 0) = some (.transform 0) := by
  have hfin : ∀ i, endSchedule.length ≤ i → (scheduleRun (xNodelet 1 1) endSchedule).state i = xTrace (xInit (xNodelet 1 1)) endSchedule := by
    intro i hi
    show xTrace _ (endSchedule.take i) = _
    rw [List.take_of_length_le hi]
  have hdone : ∀ t ∈ nodeletThreads 1, (xTrace (xInit (xNodelet 1 1)) endSchedule).cont t = [] := by
    have hb : ∀ t ∈ [Thr.destructor, Thr.worker, Thr.tfListener, Thr.transform 0], ((xTrace (xInit (xNodelet 1 1)) endSchedule).cont t).isEmpty = true := by
      decide +kernel
    intro t ht
    rw [mem_nodeletThreads] at ht
    have : t ∈ [Thr.destructor, Thr.worker, Thr.tfListener, Thr.transform 0] := by
      rcases ht with rfl | rfl | rfl | ⟨i, hi, rfl⟩
      · simp
      · simp
      · simp
      · obtain rfl : i = 0 := by omega
        simp
    simpa using hb t this
  have hother : ∀ t, t ∉ nodeletThreads 1 → ∀ (l : List (Thr × Bool)) (s : XState Thr Mtx), (∀ x ∈ l, x.1 ∈ nodeletThreads 1) → (xTrace s l).cont t = s.cont t := by
    intro t ht l
    induction l with
    | nil => intro s _; rfl
    | cons x l ih =>
      intro s hl
      show (xTrace ((xExec s x.1 x.2).getD s) l).cont t = _
      rw [ih _ fun y hy => hl y (by simp [hy])]
      rcases he : xExec s x.1 x.2 with _ | s'
      · rfl
      · exact step_other (xExec_step he) (fun h => ht (h ▸ hl x (by simp)))
  have hall : ∀ x ∈ endSchedule, x.1 ∈ nodeletThreads 1 := by decide +kernel
  refine ⟨scheduleRun (xNodelet 1 1) endSchedule, ?_, ?_, ⟨20, by decide +kernel⟩, ⟨5, by decide +kernel, by decide +kernel⟩⟩
  · intro t ht hen
    obtain ⟨i, hi, s', hs'⟩ := hen endSchedule.length
    rw [hfin i hi] at hs'
    exact absurd (hdone t ht) (step_nonempty hs')
  · intro l N
    refine ⟨max N endSchedule.length, le_max_left _ _, ?_⟩
    intro t ho
    by_contra ht
    have hr := (scheduleRun (xNodelet 1 1) endSchedule).reach (max N endSchedule.length)
    have hinv := lockInv_reach (xNodelet_closing 1 1).ordered (reach_erase hr)
    have := (hinv.2.2 l t).1 ho
    change l ∈ heldOf ((((scheduleRun (xNodelet 1 1) endSchedule).state (max N endSchedule.length)).cont t).map XTodo.erase) at this
    rw [hfin _ (le_max_right _ _), hother t ht _ _ hall] at this
    cases this

/-- Non-vacuity of `C99_terminates_violated` and `C99_runs_until_exit`: the destructor returns in a reachable state, and begins later than the threads. -/
example : (∃ s, XReach (xNodelet 1 1) s ∧ s.cont .destructor = []) ∧ ∃ s, XReach (xNodelet 1 1) s ∧ s.exit = false ∧ s.owner (.camera 0) = some (.transform 0) := by
  refine ⟨⟨_, xTrace_reach endSchedule .start, ?_⟩, ⟨_, xTrace_reach (List.replicate 3 (.transform 0, false)) .start, by decide +kernel, by decide +kernel⟩⟩
  have h : ((xTrace (xInit (xNodelet 1 1)) endSchedule).cont .destructor).isEmpty = true := by decide +kernel
  simpa using h

/-! ## C99: the safe landing planner node -/

/-- **C99, violated: the safe landing planner node never ends by itself.** `main` waits for the worker, whose flag nobody sets: in no reachable state has the worker ended or
`main` gone on. -/
theorem C99_landing_never_ends_violated (s : XState SlpThr SlpMtx) (h : XReach slpProg s) :
    s.cont .worker ≠ [] ∧ s.cont .main ≠ [] ∧ s.joined .worker = false ∧ s.exit = false := by
  have key : s.exit = false ∧ (∃ pre p, s.cont .worker = pre ++ [.run (.whileRunning p)]) ∧ s.cont .main = [.run (.join .worker)] ∧ s.joined .worker = false ∧
      NoExitAll (s.cont .worker) ∧ NoJoinAll (s.cont .worker) := by
    induction h with
    | start =>
      refine ⟨rfl, ⟨[], _, rfl⟩, rfl, rfl, ⟨?_, trivial⟩, ⟨?_, trivial⟩⟩
      · simp [slpProg, seqs, once, XProg.NoExit]
      · simp [slpProg, seqs, once, XProg.NoJoin]
    | @step s a s' _ hn ih =>
      obtain ⟨h1, ⟨pre, p, h2⟩, h3, h4, h5, h6⟩ := ih
      cases a with
      | position => cases hn; exact ⟨h1, ⟨pre, p, h2⟩, h3, h4, h5, h6⟩
      | notOk => cases hn; exact ⟨h1, ⟨pre, p, h2⟩, h3, h4, h5, h6⟩
      | idle => cases hn; exact ⟨h1, ⟨pre, p, h2⟩, h3, h4, h5, h6⟩
      | thread t =>
        cases t with
        | main =>
          exfalso
          have hn : XStep s .main s' := hn
          cases hn <;> rename_i hc <;> (try rename_i hc'; skip) <;> simp_all
        | worker =>
          have hn : XStep s .worker s' := hn
          refine ⟨?_, ?_, by rw [step_other hn (by simp)]; exact h3, ?_, step_noExit hn h5, step_noJoin hn h6⟩
          · cases hn with
            | setExit hc => rw [hc] at h5; exact absurd h5.1 id
            | _ => exact h1
          · rcases pre with _ | ⟨x, pre⟩
            · rw [List.nil_append] at h2
              refine ⟨[.run p], p, ?_⟩
              cases hn <;> rename_i hc <;> (try rename_i hc'; skip) <;> simp_all [XState.go]
            · obtain ⟨front, hf⟩ := step_suffix hn (show s.cont .worker = x :: (pre ++ [.run (.whileRunning p)]) from h2)
              exact ⟨front ++ pre, p, by rw [hf, List.append_assoc]⟩
          · cases hn with
            | join hc _ => rw [hc] at h6; exact absurd h6.1 id
            | _ => exact h4
  obtain ⟨h1, ⟨pre, p, h2⟩, h3, h4, -, -⟩ := key
  exact ⟨by rw [h2]; simp, by rw [h3]; simp, h4, h1⟩

/-- Non-vacuity: the worker of the safe landing planner does work. -/
example : ∃ s, XReach slpProg s ∧ s.owner .cloudMsg = some .worker :=
  ⟨_, xTrace_reach (List.replicate 3 (.worker, true)) .start, by decide +kernel⟩

end Avoidance
