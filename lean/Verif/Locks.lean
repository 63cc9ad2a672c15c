import Mathlib.Data.Finset.Max
import Mathlib.Order.Basic
import Mathlib.Tactic.Common

/-!
# A small language of scoped mutexes

Threads of the nodelets use `std::lock_guard`/`std::unique_lock` only in scopes.  `LockProg` abstracts a
thread to its locking structure; everything else is a (terminating) `skip`, branches and loop exits
are nondeterministic.  `cv.wait_for(lock)` releases the mutex and takes it again: it is written as the
end of the scope followed by a new one.
-/

namespace Avoidance

/-- Locking structure of a piece of code. -/
inductive LockProg (L : Type) where
  | skip
  | seq (a b : LockProg L)
  | choice (a b : LockProg L)
  | star (a : LockProg L)
  | guarded (l : L) (body : LockProg L)

/-- What a thread still has to do: a program, or the end of a scope. -/
inductive Todo (L : Type) where
  | run (p : LockProg L)
  | unlock (l : L)

/-- All threads (`cont`), and which thread owns each mutex. -/
structure LockState (T L : Type) where
  cont : T → List (Todo L)
  owner : L → Option T

variable {T L : Type} [DecidableEq T] [DecidableEq L]

/-- One step of thread `t`.  `std::mutex` is not recursive: it can be taken only when nobody owns it. -/
inductive LockStep (s : LockState T L) (t : T) : LockState T L → Prop
  | skip {k} : s.cont t = .run .skip :: k → LockStep s t { s with cont := Function.update s.cont t k }
  | seq {a b k} : s.cont t = .run (.seq a b) :: k →
      LockStep s t { s with cont := Function.update s.cont t (.run a :: .run b :: k) }
  | left {a b k} : s.cont t = .run (.choice a b) :: k →
      LockStep s t { s with cont := Function.update s.cont t (.run a :: k) }
  | right {a b k} : s.cont t = .run (.choice a b) :: k →
      LockStep s t { s with cont := Function.update s.cont t (.run b :: k) }
  | stop {a k} : s.cont t = .run (.star a) :: k →
      LockStep s t { s with cont := Function.update s.cont t k }
  | again {a k} : s.cont t = .run (.star a) :: k →
      LockStep s t { s with cont := Function.update s.cont t (.run a :: .run (.star a) :: k) }
  | lock {l body k} : s.cont t = .run (.guarded l body) :: k → s.owner l = none →
      LockStep s t { cont := Function.update s.cont t (.run body :: .unlock l :: k),
                     owner := Function.update s.owner l (some t) }
  | unlock {l k} : s.cont t = .unlock l :: k →
      LockStep s t { cont := Function.update s.cont t k, owner := Function.update s.owner l none }

/-- Reachable from the start of all threads (no mutex taken). -/
inductive LockReach (progs : T → LockProg L) : LockState T L → Prop
  | start : LockReach progs { cont := fun t => [.run (progs t)], owner := fun _ => none }
  | step {s s' t} : LockReach progs s → LockStep s t s' → LockReach progs s'

/-- Thread `t` waits for mutex `l`, which thread `u` owns (`u = t`: locking a mutex twice). -/
def WaitsFor (s : LockState T L) (t : T) (l : L) (u : T) : Prop :=
  (∃ body k, s.cont t = .run (.guarded l body) :: k) ∧ s.owner l = some u

/-! ## The order criterion -/

/-- Every mutex taken while the ones in `held` are held has a higher rank than each of them. -/
def LockProg.Ordered (rank : L → ℕ) : List L → LockProg L → Prop
  | _, .skip => True
  | held, .seq a b => a.Ordered rank held ∧ b.Ordered rank held
  | held, .choice a b => a.Ordered rank held ∧ b.Ordered rank held
  | held, .star a => a.Ordered rank held
  | held, .guarded l body => (∀ h ∈ held, rank h < rank l) ∧ body.Ordered rank (l :: held)

/-- The mutexes held by a thread. -/
def heldOf : List (Todo L) → List L
  | [] => []
  | .run _ :: k => heldOf k
  | .unlock l :: k => l :: heldOf k

/-- Every pending program is ordered with respect to what is held below it. -/
def ContOk (rank : L → ℕ) : List (Todo L) → Prop
  | [] => True
  | .run p :: k => p.Ordered rank (heldOf k) ∧ ContOk rank k
  | .unlock _ :: k => ContOk rank k

/-- Owners and continuations agree. -/
def LockInv (rank : L → ℕ) (s : LockState T L) : Prop :=
  (∀ t, ContOk rank (s.cont t)) ∧ (∀ t, (heldOf (s.cont t)).Nodup) ∧
  (∀ l t, s.owner l = some t ↔ l ∈ heldOf (s.cont t))

theorem lockInv_step {rank : L → ℕ} {s s' : LockState T L} {t : T} (hi : LockInv rank s)
    (h : LockStep s t s') : LockInv rank s' := by
  obtain ⟨h1, h2, h3⟩ := hi
  have keep : ∀ k : List (Todo L), ContOk rank k → heldOf k = heldOf (s.cont t) →
      LockInv rank { s with cont := Function.update s.cont t k } := by
    intro k hk hh
    refine ⟨fun u => ?_, fun u => ?_, fun l u => ?_⟩
    · by_cases hu : u = t
      · subst hu; simpa using hk
      · simpa [hu] using h1 u
    · by_cases hu : u = t
      · subst hu; simpa [hh] using h2 u
      · simpa [hu] using h2 u
    · by_cases hu : u = t
      · subst hu; simpa [hh] using h3 l u
      · simpa [hu] using h3 l u
  cases h with
  | skip hc => have := h1 t; rw [hc] at this; exact keep _ this.2 (by rw [hc]; rfl)
  | seq hc =>
    have := h1 t; rw [hc] at this
    exact keep _ ⟨this.1.1, this.1.2, this.2⟩ (by rw [hc]; rfl)
  | left hc => have := h1 t; rw [hc] at this; exact keep _ ⟨this.1.1, this.2⟩ (by rw [hc]; rfl)
  | right hc => have := h1 t; rw [hc] at this; exact keep _ ⟨this.1.2, this.2⟩ (by rw [hc]; rfl)
  | stop hc => have := h1 t; rw [hc] at this; exact keep _ this.2 (by rw [hc]; rfl)
  | again hc =>
    have := h1 t; rw [hc] at this
    exact keep _ ⟨this.1, this.1, this.2⟩ (by rw [hc]; rfl)
  | @lock l body k hc ho =>
    have hok := h1 t; rw [hc] at hok
    have hnotin : ∀ u, l ∉ heldOf (s.cont u) := fun u hu => by
      have := (h3 l u).2 hu; rw [ho] at this; exact absurd this (by simp)
    have hht : heldOf (s.cont t) = heldOf k := by rw [hc]; rfl
    refine ⟨fun u => ?_, fun u => ?_, fun m u => ?_⟩
    · by_cases hu : u = t
      · subst hu
        simp only [Function.update_self]
        exact ⟨hok.1.2, hok.2⟩
      · simpa [hu] using h1 u
    · by_cases hu : u = t
      · subst hu
        simp only [Function.update_self, heldOf]
        rw [List.nodup_cons]
        refine ⟨?_, ?_⟩
        · rw [← hht]; exact hnotin u
        · have := h2 u; rw [hht] at this; exact this
      · simpa [hu] using h2 u
    · by_cases hm : m = l
      · subst hm
        by_cases hu : u = t
        · subst hu; simp [heldOf]
        · simp only [Function.update_self, Function.update_of_ne hu, Option.some.injEq]
          exact ⟨fun h => absurd h.symm hu, fun h => absurd h (hnotin u)⟩
      · simp only [Function.update_of_ne hm]
        by_cases hu : u = t
        · subst hu
          rw [h3, hht]
          simp [heldOf, hm]
        · simpa [hu] using h3 m u
  | @unlock l k hc =>
    have hok := h1 t; rw [hc] at hok
    have hht : heldOf (s.cont t) = l :: heldOf k := by rw [hc]; rfl
    have hnd := h2 t; rw [hht, List.nodup_cons] at hnd
    have hown : s.owner l = some t := (h3 l t).2 (by rw [hht]; simp)
    refine ⟨fun u => ?_, fun u => ?_, fun m u => ?_⟩
    · by_cases hu : u = t
      · subst hu; simp only [Function.update_self]; exact hok
      · simpa [hu] using h1 u
    · by_cases hu : u = t
      · subst hu; simpa using hnd.2
      · simpa [hu] using h2 u
    · by_cases hm : m = l
      · subst hm
        simp only [Function.update_self]
        by_cases hu : u = t
        · subst hu
          simp only [Function.update_self]
          exact ⟨fun h => absurd h (by simp), fun h => absurd h hnd.1⟩
        · simp only [Function.update_of_ne hu]
          refine ⟨fun h => absurd h (by simp), fun h => ?_⟩
          have := (h3 m u).2 h
          rw [hown, Option.some.injEq] at this
          exact absurd this.symm hu
      · simp only [Function.update_of_ne hm]
        by_cases hu : u = t
        · subst hu
          simp only [Function.update_self]
          rw [h3, hht]
          simp [hm]
        · simpa [hu] using h3 m u

theorem lockInv_reach {rank : L → ℕ} {progs : T → LockProg L} (hp : ∀ t, (progs t).Ordered rank [])
    {s : LockState T L} (h : LockReach progs s) : LockInv rank s := by
  induction h with
  | start =>
    refine ⟨fun t => ⟨hp t, trivial⟩, fun t => List.nodup_nil, fun l t => ?_⟩
    simp [heldOf]
  | step _ hs ih => exact lockInv_step ih hs

/-- Ordered programs never reach a state in which a set of threads waits only for each other (a single
thread waiting for itself included). -/
theorem no_deadlock {rank : L → ℕ} {progs : T → LockProg L} (hp : ∀ t, (progs t).Ordered rank [])
    {s : LockState T L} (h : LockReach progs s) (S : Finset T) (hS : S.Nonempty)
    (hw : ∀ t ∈ S, ∃ l, ∃ u ∈ S, WaitsFor s t l u) : False := by
  obtain ⟨h1, -, h3⟩ := lockInv_reach hp h
  classical
  have : Nonempty L := let ⟨t, ht⟩ := hS; let ⟨l, _⟩ := hw t ht; ⟨l⟩
  choose! l hl using hw
  obtain ⟨t, ht, hmax⟩ := S.exists_max_image (fun t => rank (l t)) hS
  obtain ⟨u, hu, -, ho⟩ := hl t ht
  obtain ⟨v, hv, ⟨body, k, hc⟩, -⟩ := hl u hu
  have hheld : l t ∈ heldOf (s.cont u) := (h3 _ _).1 ho
  have hok := h1 u
  rw [hc] at hok hheld
  have := hok.1.1 (l t) hheld
  exact absurd (hmax u hu) (not_le.2 this)

/-- In particular (finitely many threads): as long as some thread has something left to do, some
thread can take a step. -/
theorem progress [Fintype T] {rank : L → ℕ} {progs : T → LockProg L} (hp : ∀ t, (progs t).Ordered rank [])
    {s : LockState T L} (h : LockReach progs s) (hn : ∃ t, s.cont t ≠ []) : ∃ t s', LockStep s t s' := by
  classical
  by_contra hno
  push Not at hno
  obtain ⟨h1, -, h3⟩ := lockInv_reach hp h
  have hblocked : ∀ t, s.cont t ≠ [] → ∃ l u, WaitsFor s t l u := by
    intro t ht
    rcases hc : s.cont t with _ | ⟨a, k⟩
    · exact absurd hc ht
    · cases a with
      | unlock l => exact absurd (LockStep.unlock hc) (hno t _)
      | run p =>
        cases p with
        | skip => exact absurd (LockStep.skip hc) (hno t _)
        | seq a b => exact absurd (LockStep.seq hc) (hno t _)
        | choice a b => exact absurd (LockStep.left hc) (hno t _)
        | star a => exact absurd (LockStep.stop hc) (hno t _)
        | guarded l body =>
          rcases ho : s.owner l with _ | u
          · exact absurd (LockStep.lock hc ho) (hno t _)
          · exact ⟨l, u, ⟨⟨body, k, hc⟩, ho⟩⟩
  refine no_deadlock hp h (Finset.univ.filter fun t => s.cont t ≠ []) ?_ ?_
  · obtain ⟨t, ht⟩ := hn; exact ⟨t, by simpa using ht⟩
  · intro t ht
    obtain ⟨l, u, hw⟩ := hblocked t (by simpa using ht)
    refine ⟨l, u, ?_, hw⟩
    have := (h3 l u).1 hw.2
    simp only [Finset.mem_filter, Finset.mem_univ, true_and]
    intro hu; rw [hu] at this; simp [heldOf] at this

end Avoidance
