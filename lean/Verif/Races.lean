import Verif.Locks

/-!
# Accesses to shared data under scoped mutexes

`AccProg` is `LockProg` with the accesses to shared data kept.  A data race is, as in the C++ standard,
a pair of threads that can both make their next access to the same data, at least one of them a write.
-/

namespace Avoidance

/-- Locks and accesses of a piece of code; `access x true` writes. -/
inductive AccProg (L X : Type) where
  | skip
  | access (x : X) (write : Bool)
  | seq (a b : AccProg L X)
  | choice (a b : AccProg L X)
  | star (a : AccProg L X)
  | guarded (l : L) (body : AccProg L X)

/-- What a thread still has to do. -/
inductive AccTodo (L X : Type) where
  | run (p : AccProg L X)
  | unlock (l : L)

/-- All threads, and which thread owns each mutex. -/
structure AccState (T L X : Type) where
  cont : T → List (AccTodo L X)
  owner : L → Option T

variable {T L X : Type} [DecidableEq T] [DecidableEq L]

/-- One step of thread `t`. -/
inductive AccStep (s : AccState T L X) (t : T) : AccState T L X → Prop
  | skip {k} : s.cont t = .run .skip :: k → AccStep s t { s with cont := Function.update s.cont t k }
  | access {x w k} : s.cont t = .run (.access x w) :: k → AccStep s t { s with cont := Function.update s.cont t k }
  | seq {a b k} : s.cont t = .run (.seq a b) :: k →
      AccStep s t { s with cont := Function.update s.cont t (.run a :: .run b :: k) }
  | left {a b k} : s.cont t = .run (.choice a b) :: k →
      AccStep s t { s with cont := Function.update s.cont t (.run a :: k) }
  | right {a b k} : s.cont t = .run (.choice a b) :: k →
      AccStep s t { s with cont := Function.update s.cont t (.run b :: k) }
  | stop {a k} : s.cont t = .run (.star a) :: k →
      AccStep s t { s with cont := Function.update s.cont t k }
  | again {a k} : s.cont t = .run (.star a) :: k →
      AccStep s t { s with cont := Function.update s.cont t (.run a :: .run (.star a) :: k) }
  | lock {l body k} : s.cont t = .run (.guarded l body) :: k → s.owner l = none →
      AccStep s t { cont := Function.update s.cont t (.run body :: .unlock l :: k),
                    owner := Function.update s.owner l (some t) }
  | unlock {l k} : s.cont t = .unlock l :: k →
      AccStep s t { cont := Function.update s.cont t k, owner := Function.update s.owner l none }

/-- Reachable from the start of all threads (no mutex taken). -/
inductive AccReach (progs : T → AccProg L X) : AccState T L X → Prop
  | start : AccReach progs { cont := fun t => [.run (progs t)], owner := fun _ => none }
  | step {s s' t} : AccReach progs s → AccStep s t s' → AccReach progs s'

/-- The next thing thread `t` does is to access `x`. -/
def AtAccess (s : AccState T L X) (t : T) (x : X) (w : Bool) : Prop :=
  ∃ k, s.cont t = .run (.access x w) :: k

/-- Two threads are about to access `x`, at least one of them to write it. -/
def Race (s : AccState T L X) (x : X) : Prop :=
  ∃ t u w w', t ≠ u ∧ AtAccess s t x w ∧ AtAccess s u x w' ∧ (w = true ∨ w' = true)

/-! ## Absence of races: the locks held at each access -/

/-- The accesses to `x` in a program, each with the mutexes held there. -/
def AccProg.sites (x : X) [DecidableEq X] : List L → AccProg L X → List (Bool × List L)
  | _, .skip => []
  | held, .access y w => if y = x then [(w, held)] else []
  | held, .seq a b => a.sites x held ++ b.sites x held
  | held, .choice a b => a.sites x held ++ b.sites x held
  | held, .star a => a.sites x held
  | held, .guarded l body => body.sites x (l :: held)

/-- The mutexes held by a thread. -/
def accHeld : List (AccTodo L X) → List L
  | [] => []
  | .run _ :: k => accHeld k
  | .unlock l :: k => l :: accHeld k

/-- Every access to `x` still to come is one of the sites `S`. -/
def AccOk (x : X) [DecidableEq X] (S : List (Bool × List L)) : List (AccTodo L X) → Prop
  | [] => True
  | .run p :: k => (∀ e ∈ p.sites x (accHeld k), e ∈ S) ∧ AccOk x S k
  | .unlock _ :: k => AccOk x S k

/-- Owners and continuations agree. -/
def OwnInv (s : AccState T L X) : Prop :=
  (∀ t, (accHeld (s.cont t)).Nodup) ∧ (∀ l t, s.owner l = some t ↔ l ∈ accHeld (s.cont t))

theorem ownInv_keep {s : AccState T L X} {t : T} (h : OwnInv s) (k : List (AccTodo L X))
    (hk : accHeld k = accHeld (s.cont t)) : OwnInv { s with cont := Function.update s.cont t k } := by
  obtain ⟨h2, h3⟩ := h
  refine ⟨fun u => ?_, fun l u => ?_⟩
  · by_cases hu : u = t
    · subst hu; simpa [hk] using h2 u
    · simpa [hu] using h2 u
  · by_cases hu : u = t
    · subst hu; simpa [hk] using h3 l u
    · simpa [hu] using h3 l u

theorem ownInv_step {s s' : AccState T L X} {t : T} (hi : OwnInv s) (h : AccStep s t s') : OwnInv s' := by
  cases h with
  | skip hc => exact ownInv_keep hi _ (by rw [hc]; rfl)
  | access hc => exact ownInv_keep hi _ (by rw [hc]; rfl)
  | seq hc => exact ownInv_keep hi _ (by rw [hc]; rfl)
  | left hc => exact ownInv_keep hi _ (by rw [hc]; rfl)
  | right hc => exact ownInv_keep hi _ (by rw [hc]; rfl)
  | stop hc => exact ownInv_keep hi _ (by rw [hc]; rfl)
  | again hc => exact ownInv_keep hi _ (by rw [hc]; rfl)
  | @lock l body k hc ho =>
    obtain ⟨h2, h3⟩ := hi
    have hnotin : ∀ u, l ∉ accHeld (s.cont u) := fun u hu => by
      have := (h3 l u).2 hu; rw [ho] at this; exact absurd this (by simp)
    have hht : accHeld (s.cont t) = accHeld k := by rw [hc]; rfl
    refine ⟨fun u => ?_, fun m u => ?_⟩
    · by_cases hu : u = t
      · subst hu
        simp only [Function.update_self, accHeld]
        rw [List.nodup_cons]
        refine ⟨?_, ?_⟩
        · rw [← hht]; exact hnotin u
        · have := h2 u; rw [hht] at this; exact this
      · simpa [hu] using h2 u
    · by_cases hm : m = l
      · subst hm
        by_cases hu : u = t
        · subst hu; simp [accHeld]
        · simp only [Function.update_self, Function.update_of_ne hu, Option.some.injEq]
          exact ⟨fun h => absurd h.symm hu, fun h => absurd h (hnotin u)⟩
      · simp only [Function.update_of_ne hm]
        by_cases hu : u = t
        · subst hu
          rw [h3, hht]
          simp [accHeld, hm]
        · simpa [hu] using h3 m u
  | @unlock l k hc =>
    obtain ⟨h2, h3⟩ := hi
    have hht : accHeld (s.cont t) = l :: accHeld k := by rw [hc]; rfl
    have hnd := h2 t; rw [hht, List.nodup_cons] at hnd
    have hown : s.owner l = some t := (h3 l t).2 (by rw [hht]; simp)
    refine ⟨fun u => ?_, fun m u => ?_⟩
    · by_cases hu : u = t
      · subst hu; simpa using hnd.2
      · simpa [hu] using h2 u
    · by_cases hm : m = l
      · subst hm
        simp only [Function.update_self]
        by_cases hu : u = t
        · subst hu
          simp only [Function.update_self]
          exact ⟨fun h => absurd h (by simp), fun h => absurd h hnd.1⟩
        · simp only [Function.update_of_ne hu]
          refine ⟨fun h => absurd h (by simp), fun h => ?_⟩
          have := (h3 m u).2 h
          rw [hown, Option.some.injEq] at this
          exact absurd this.symm hu
      · simp only [Function.update_of_ne hm]
        by_cases hu : u = t
        · subst hu
          simp only [Function.update_self]
          rw [h3, hht]
          simp [hm]
        · simpa [hu] using h3 m u

theorem accOk_step {x : X} [DecidableEq X] {S : T → List (Bool × List L)} {s s' : AccState T L X} {t : T}
    (hi : ∀ t, AccOk x (S t) (s.cont t)) (h : AccStep s t s') : ∀ t, AccOk x (S t) (s'.cont t) := by
  have keep : ∀ (o : L → Option T) (k : List (AccTodo L X)), AccOk x (S t) k →
      ∀ u, AccOk x (S u) (({ cont := Function.update s.cont t k, owner := o } : AccState T L X).cont u) := by
    intro o k hk u
    by_cases hu : u = t
    · subst hu; simpa using hk
    · simpa [hu] using hi u
  have ht := hi t
  cases h with
  | skip hc => rw [hc] at ht; exact keep _ _ ht.2
  | access hc => rw [hc] at ht; exact keep _ _ ht.2
  | seq hc =>
    rw [hc] at ht
    exact keep _ _ ⟨fun e he => ht.1 e (List.mem_append_left _ he), fun e he => ht.1 e (List.mem_append_right _ he), ht.2⟩
  | left hc => rw [hc] at ht; exact keep _ _ ⟨fun e he => ht.1 e (List.mem_append_left _ he), ht.2⟩
  | right hc => rw [hc] at ht; exact keep _ _ ⟨fun e he => ht.1 e (List.mem_append_right _ he), ht.2⟩
  | stop hc => rw [hc] at ht; exact keep _ _ ht.2
  | again hc => rw [hc] at ht; exact keep _ _ ⟨ht.1, ht.1, ht.2⟩
  | lock hc ho => rw [hc] at ht; exact keep _ _ ⟨ht.1, ht.2⟩
  | unlock hc => rw [hc] at ht; exact keep _ _ ht

/-- If of any two accesses to `x` by different threads, one of them a write, both hold a common mutex,
then no race on `x` is ever reached. -/
theorem no_race {x : X} [DecidableEq X] {progs : T → AccProg L X}
    (hp : ∀ t u, t ≠ u → ∀ e ∈ (progs t).sites x [], ∀ f ∈ (progs u).sites x [], (e.1 = true ∨ f.1 = true) →
      ∃ l ∈ e.2, l ∈ f.2)
    {s : AccState T L X} (h : AccReach progs s) : ¬ Race s x := by
  have inv : OwnInv s ∧ ∀ t, AccOk x ((progs t).sites x []) (s.cont t) := by
    clear hp
    induction h with
    | start => exact ⟨⟨fun t => List.nodup_nil, fun l t => by simp [accHeld]⟩, fun t => ⟨fun e he => he, trivial⟩⟩
    | step _ hs ih => exact ⟨ownInv_step ih.1 hs, accOk_step ih.2 hs⟩
  obtain ⟨⟨-, h3⟩, ha⟩ := inv
  rintro ⟨t, u, w, w', hne, ⟨k, hk⟩, ⟨k', hk'⟩, hw⟩
  have h1 := ha t
  have h2 := ha u
  rw [hk] at h1
  rw [hk'] at h2
  have e1 := h1.1 (w, accHeld k) (by simp [AccProg.sites])
  have e2 := h2.1 (w', accHeld k') (by simp [AccProg.sites])
  obtain ⟨l, l1, l2⟩ := hp t u hne _ e1 _ e2 hw
  have o1 : s.owner l = some t := (h3 l t).2 (by rw [hk]; exact l1)
  have o2 : s.owner l = some u := (h3 l u).2 (by rw [hk']; exact l2)
  rw [o1] at o2
  exact hne (Option.some.inj o2)

/-! ## Presence of races -/

/-- The program can be run to its end when the mutexes in `F` are free. -/
def AccProg.Passes : (L → Prop) → AccProg L X → Prop
  | _, .skip => True
  | _, .access _ _ => True
  | F, .seq a b => a.Passes F ∧ b.Passes F
  | F, .choice a b => a.Passes F ∨ b.Passes F
  | _, .star _ => True
  | F, .guarded l body => F l ∧ body.Passes (fun m => F m ∧ m ≠ l)

/-- When the mutexes in `F` are free the program can be run up to an access to `x`, the mutexes `H`
being held there. -/
inductive AccProg.Gets (x : X) (w : Bool) : (L → Prop) → AccProg L X → List L → Prop
  | here {F} : Gets x w F (.access x w) []
  | first {F a b H} : Gets x w F a H → Gets x w F (.seq a b) H
  | second {F a b H} : a.Passes F → Gets x w F b H → Gets x w F (.seq a b) H
  | left {F a b H} : Gets x w F a H → Gets x w F (.choice a b) H
  | right {F a b H} : Gets x w F b H → Gets x w F (.choice a b) H
  | loop {F a H} : Gets x w F a H → Gets x w F (.star a) H
  | guarded {F l body H} : F l → Gets x w (fun m => F m ∧ m ≠ l) body H → Gets x w F (.guarded l body) (l :: H)

/-- Any number of steps of thread `t`. -/
inductive AccSteps (t : T) : AccState T L X → AccState T L X → Prop
  | refl (s) : AccSteps t s s
  | step {s s' s''} : AccStep s t s' → AccSteps t s' s'' → AccSteps t s s''

theorem AccSteps.trans {t : T} {s s' s'' : AccState T L X} (h : AccSteps t s s') (h' : AccSteps t s' s'') :
    AccSteps t s s'' := by
  induction h with
  | refl s => exact h'
  | step hs _ ih => exact .step hs (ih h')

theorem AccSteps.reach {progs : T → AccProg L X} {t : T} {s s' : AccState T L X} (h : AccSteps t s s')
    (hr : AccReach progs s) : AccReach progs s' := by
  induction h with
  | refl s => exact hr
  | step hs _ ih => exact ih (.step hr hs)

theorem passes_run (t : T) (p : AccProg L X) : ∀ (F : L → Prop) (s : AccState T L X) (k : List (AccTodo L X)),
    p.Passes F → (∀ l, F l → s.owner l = none) → s.cont t = .run p :: k →
    ∃ s', AccSteps t s s' ∧ s'.cont t = k ∧ s'.owner = s.owner ∧ ∀ u ≠ t, s'.cont u = s.cont u := by
  have upd : ∀ (s : AccState T L X) (k : List (AccTodo L X)), ∀ u ≠ t, (Function.update s.cont t k) u = s.cont u :=
    fun s k u hu => Function.update_of_ne hu _ _
  induction p with
  | skip =>
    intro F s k _ _ hc
    exact ⟨_, .step (.skip hc) (.refl _), Function.update_self .., rfl, upd s k⟩
  | access x w =>
    intro F s k _ _ hc
    exact ⟨_, .step (.access hc) (.refl _), Function.update_self .., rfl, upd s k⟩
  | seq a b iha ihb =>
    intro F s k hp hF hc
    obtain ⟨s1, r1, c1, o1, e1⟩ := iha F { s with cont := Function.update s.cont t (.run a :: .run b :: k) } (.run b :: k)
      hp.1 hF (Function.update_self ..)
    obtain ⟨s2, r2, c2, o2, e2⟩ := ihb F s1 k hp.2 (by rw [o1]; exact hF) c1
    exact ⟨s2, .step (.seq hc) (r1.trans r2), c2, o2.trans o1, fun u hu => (e2 u hu).trans ((e1 u hu).trans (upd s _ u hu))⟩
  | choice a b iha ihb =>
    intro F s k hp hF hc
    rcases hp with hp | hp
    · obtain ⟨s1, r1, c1, o1, e1⟩ := iha F { s with cont := Function.update s.cont t (.run a :: k) } k hp hF
        (Function.update_self ..)
      exact ⟨s1, .step (.left hc) r1, c1, o1, fun u hu => (e1 u hu).trans (upd s _ u hu)⟩
    · obtain ⟨s1, r1, c1, o1, e1⟩ := ihb F { s with cont := Function.update s.cont t (.run b :: k) } k hp hF
        (Function.update_self ..)
      exact ⟨s1, .step (.right hc) r1, c1, o1, fun u hu => (e1 u hu).trans (upd s _ u hu)⟩
  | star a _ =>
    intro F s k _ _ hc
    exact ⟨_, .step (.stop hc) (.refl _), Function.update_self .., rfl, upd s k⟩
  | guarded l body ih =>
    intro F s k hp hF hc
    obtain ⟨s1, r1, c1, o1, e1⟩ := ih (fun m => F m ∧ m ≠ l)
      { cont := Function.update s.cont t (.run body :: .unlock l :: k), owner := Function.update s.owner l (some t) }
      (.unlock l :: k) hp.2 (fun m hm => by simpa [hm.2] using hF m hm.1) (Function.update_self ..)
    refine ⟨{ cont := Function.update s1.cont t k, owner := Function.update s1.owner l none }, ?_, Function.update_self .., ?_, ?_⟩
    · exact .step (.lock hc (hF l hp.1)) (r1.trans (.step (.unlock c1) (.refl _)))
    · show Function.update s1.owner l none = s.owner
      rw [o1]
      funext m
      by_cases hm : m = l
      · subst hm; simp [hF m hp.1]
      · simp [hm]
    · intro u hu
      show Function.update s1.cont t k u = _
      rw [Function.update_of_ne hu]
      exact (e1 u hu).trans (upd s _ u hu)

theorem gets_run (t : T) {x : X} {w : Bool} {F : L → Prop} {p : AccProg L X} {H : List L} (h : p.Gets x w F H) :
    ∀ (s : AccState T L X) (k : List (AccTodo L X)), (∀ l, F l → s.owner l = none) → s.cont t = .run p :: k →
    ∃ s', AccSteps t s s' ∧ AtAccess s' t x w ∧ (∀ l, l ∉ H → s'.owner l = s.owner l) ∧
      ∀ u ≠ t, s'.cont u = s.cont u := by
  have upd : ∀ (s : AccState T L X) (k : List (AccTodo L X)), ∀ u ≠ t, (Function.update s.cont t k) u = s.cont u :=
    fun s k u hu => Function.update_of_ne hu _ _
  induction h with
  | here => intro s k _ hc; exact ⟨s, .refl _, ⟨k, hc⟩, fun _ _ => rfl, fun _ _ => rfl⟩
  | @first F a b H _ ih =>
    intro s k hF hc
    obtain ⟨s1, r1, c1, o1, e1⟩ := ih { s with cont := Function.update s.cont t (.run a :: .run b :: k) } (.run b :: k) hF
      (Function.update_self ..)
    exact ⟨s1, .step (.seq hc) r1, c1, o1, fun u hu => (e1 u hu).trans (upd s _ u hu)⟩
  | @second F a b H ha _ ih =>
    intro s k hF hc
    obtain ⟨s1, r1, c1, o1, e1⟩ := passes_run t a F { s with cont := Function.update s.cont t (.run a :: .run b :: k) }
      (.run b :: k) ha hF (Function.update_self ..)
    obtain ⟨s2, r2, c2, o2, e2⟩ := ih s1 k (by rw [o1]; exact hF) c1
    exact ⟨s2, .step (.seq hc) (r1.trans r2), c2, fun l hl => (o2 l hl).trans (congrFun o1 l),
      fun u hu => (e2 u hu).trans ((e1 u hu).trans (upd s _ u hu))⟩
  | @left F a b H _ ih =>
    intro s k hF hc
    obtain ⟨s1, r1, c1, o1, e1⟩ := ih { s with cont := Function.update s.cont t (.run a :: k) } k hF (Function.update_self ..)
    exact ⟨s1, .step (.left hc) r1, c1, o1, fun u hu => (e1 u hu).trans (upd s _ u hu)⟩
  | @right F a b H _ ih =>
    intro s k hF hc
    obtain ⟨s1, r1, c1, o1, e1⟩ := ih { s with cont := Function.update s.cont t (.run b :: k) } k hF (Function.update_self ..)
    exact ⟨s1, .step (.right hc) r1, c1, o1, fun u hu => (e1 u hu).trans (upd s _ u hu)⟩
  | @loop F a H _ ih =>
    intro s k hF hc
    obtain ⟨s1, r1, c1, o1, e1⟩ := ih { s with cont := Function.update s.cont t (.run a :: .run (.star a) :: k) }
      (.run (.star a) :: k) hF (Function.update_self ..)
    exact ⟨s1, .step (.again hc) r1, c1, o1, fun u hu => (e1 u hu).trans (upd s _ u hu)⟩
  | @guarded F l body H hl _ ih =>
    intro s k hF hc
    obtain ⟨s1, r1, c1, o1, e1⟩ := ih
      { cont := Function.update s.cont t (.run body :: .unlock l :: k), owner := Function.update s.owner l (some t) }
      (.unlock l :: k) (fun m hm => by simpa [hm.2] using hF m hm.1) (Function.update_self ..)
    refine ⟨s1, .step (.lock hc (hF l hl)) r1, c1, fun m hm => ?_, fun u hu => (e1 u hu).trans (upd s _ u hu)⟩
    rw [List.mem_cons, not_or] at hm
    rw [o1 m hm.2]
    exact Function.update_of_ne hm.1 _ _

/-- If one thread can get to an access holding `H`, and another one to an access to the same data using
none of the mutexes in `H`, and one of them writes, then a race is reached. -/
theorem race_reached {progs : T → AccProg L X} {x : X} {t u : T} {w w' : Bool} {H H' : List L} (hne : t ≠ u)
    (ht : (progs t).Gets x w (fun _ => True) H) (hu : (progs u).Gets x w' (fun l => l ∉ H) H')
    (hw : w = true ∨ w' = true) : ∃ s, AccReach progs s ∧ Race s x := by
  obtain ⟨s1, r1, ⟨k1, c1⟩, o1, e1⟩ := gets_run t ht
    { cont := fun t => [.run (progs t)], owner := fun _ => none } [] (fun _ _ => rfl) rfl
  obtain ⟨s2, r2, c2, o2, e2⟩ := gets_run u hu s1 [] (fun l hl => o1 l hl) (e1 u hne.symm)
  exact ⟨s2, r2.reach (r1.reach .start), t, u, w, w', hne, ⟨k1, (e2 t hne).trans c1⟩, c2, hw⟩

/-! ## Forgetting the accesses -/

/-- The locking structure. -/
def AccProg.locks : AccProg L X → LockProg L
  | .skip => .skip
  | .access _ _ => .skip
  | .seq a b => .seq a.locks b.locks
  | .choice a b => .choice a.locks b.locks
  | .star a => .star a.locks
  | .guarded l body => .guarded l body.locks

/-- The same for what is still to be done. -/
def AccTodo.locks : AccTodo L X → Todo L
  | .run p => .run p.locks
  | .unlock l => .unlock l

/-- The same for states. -/
def AccState.locks (s : AccState T L X) : LockState T L := ⟨fun t => (s.cont t).map AccTodo.locks, s.owner⟩

theorem locks_step {s s' : AccState T L X} {t : T} (h : AccStep s t s') : LockStep s.locks t s'.locks := by
  have upd : ∀ (k : List (AccTodo L X)) (o : L → Option T),
      (⟨Function.update s.cont t k, o⟩ : AccState T L X).locks =
        ⟨Function.update s.locks.cont t (k.map AccTodo.locks), o⟩ := by
    intro k o
    unfold AccState.locks
    congr 1
    funext u
    by_cases hu : u = t
    · subst hu; simp
    · simp [hu]
  have hd : ∀ {k}, s.cont t = k → s.locks.cont t = k.map AccTodo.locks := fun h => congrArg (List.map AccTodo.locks) h
  cases h with
  | skip hc => rw [upd]; exact .skip (hd hc)
  | access hc => rw [upd]; exact .skip (hd hc)
  | seq hc => rw [upd]; exact .seq (hd hc)
  | left hc => rw [upd]; exact .left (hd hc)
  | right hc => rw [upd]; exact .right (hd hc)
  | stop hc => rw [upd]; exact .stop (hd hc)
  | again hc => rw [upd]; exact .again (hd hc)
  | lock hc ho => rw [upd]; exact .lock (hd hc) ho
  | unlock hc => rw [upd]; exact .unlock (hd hc)

/-- Every execution is one of the locking structure, so what holds for that (absence of deadlock) holds here. -/
theorem locks_reach {progs : T → AccProg L X} {s : AccState T L X} (h : AccReach progs s) :
    LockReach (fun t => (progs t).locks) s.locks := by
  induction h with
  | start => exact .start
  | step _ hs ih => exact .step ih (locks_step hs)

end Avoidance
