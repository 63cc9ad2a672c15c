import Verif.Wakeup
import Verif.NodeletProps
import Mathlib.Algebra.Order.Archimedean.Basic
import Mathlib.Tactic.Linarith

/-!
# C90: the planner is woken up

Safety (the sleeping threads are a restriction of the threads of C40), liveness under fair scheduling, and
the delays: notifications can be lost.
-/

namespace Avoidance

theorem notify_refines (n : ℕ) (s : WakeState) : (notifyWorker n s).feed = s.feed ∨ (notifyWorker n s).feed = workerStep n s.feed := by
  unfold notifyWorker
  split_ifs
  · exact Or.inr rfl
  · exact Or.inl rfl

/-- Every state of the sleeping threads has a feed that is reachable in the model of C40. -/
theorem wake_reach (n : ℕ) (es : List WakeEvent) : FeedReach n (es.foldl (wakeStep n) wakeInit).feed := by
  suffices h : ∀ (s : WakeState), FeedReach n s.feed → FeedReach n (es.foldl (wakeStep n) s).feed from h _ .init
  induction es with
  | nil => exact fun s h => h
  | cons e es ih =>
    intro s h
    refine ih _ ?_
    have notify : ∀ s : WakeState, FeedReach n s.feed → FeedReach n (notifyWorker n s).feed := fun s h => by
      rcases notify_refines n s with e | e <;> rw [e]
      · exact h
      · exact .step h (.worker _)
    cases e with
    | arrive i stamp =>
      show FeedReach n (if i < n then arriveStep s i stamp else s).feed
      split_ifs with hi
      · have : (arriveStep s i stamp).feed = cloudArrives s.feed i stamp := by
          unfold arriveStep; dsimp only; split_ifs <;> rfl
        rw [this]
        exact .step h (.arrive _ i stamp hi)
      · exact h
    | thread i ok =>
      show FeedReach n (if i < n then threadStep n s i ok else s).feed
      split_ifs with hi
      · unfold threadStep
        split
        · split_ifs with h1 h2
          · exact notify _ (FeedReach.step h (.transform _ i hi h1))
          · exact h
          · exact h
        · exact h
        · exact h
        · exact h
      · exact h
    | worker =>
      show FeedReach n (if s.feed.pc = WorkerPc.wait then ({ s with sleeps := true } : WakeState) else { s with feed := workerStep n s.feed, sleeps := false }).feed
      split_ifs
      · exact h
      · exact .step h (.worker _)
    | timeoutThread i =>
      show FeedReach n (if i < n ∧ s.tpc i = .asleep then { s with tpc := Function.update s.tpc i .look } else s).feed
      split_ifs <;> exact h
    | timeoutWorker => exact notify s h

/-- **C90, frames.** Also with sleeping and waking, every run of the planner uses a cloud of each camera,
newer than the one of any run before. -/
theorem C90_complete_frames (n : ℕ) (es : List WakeEvent) :
    let fs := (es.foldl (wakeStep n) wakeInit).feed.frames
    (∀ f ∈ fs, 0 < n ∧ ∀ i < n, ∃ k, f i = some k) ∧
    (fs.Pairwise fun f g => ∀ i < n, ∀ k k', f i = some k → g i = some k' → k < k') := by
  obtain ⟨h1, h2⟩ := C40_complete_frames n _ (wake_reach n es)
  exact ⟨fun f hf => ⟨(h1 f hf).1, fun i hi => let ⟨k, hk, _⟩ := (h1 f hf).2 i hi; ⟨k, hk⟩⟩, h2⟩

/-! ## Liveness -/

/-- Camera `i`'s thread looks at a waiting cloud in step `k`. -/
def LooksAt (run : ℕ → WakeState) (ev : ℕ → WakeEvent) (i k : ℕ) : Prop :=
  (run k).tpc i = .look ∧ ((run k).feed.cams i).received = true ∧ ∃ ok, ev k = .thread i ok

/-- An infinite run in which every thread is scheduled again and again, every camera delivers clouds for ever
(with time stamps that grow beyond any bound), and a thread that asks for transforms again and again
gets them some time.  Nothing is assumed about the time-outs. -/
structure FairRun (n : ℕ) (run : ℕ → WakeState) (ev : ℕ → WakeEvent) : Prop where
  start : run 0 = wakeInit
  step : ∀ k, run (k + 1) = wakeStep n (run k) (ev k)
  worker : ∀ m, ∃ k ≥ m, ev k = .worker
  thread : ∀ i < n, ∀ m, ∃ k ≥ m, ∃ ok, ev k = .thread i ok
  clouds : ∀ i < n, ∀ m, ∀ b : ℚ, ∃ k ≥ m, ∃ stamp ≥ b, ev k = .arrive i stamp
  transforms : ∀ i < n, ∀ m, (∀ m' ≥ m, ∃ k ≥ m', LooksAt run ev i k) → ∃ k ≥ m, LooksAt run ev i k ∧ ev k = .thread i true

/-- What holds until something happens still holds when it happens. -/
theorem until_first (P Q : ℕ → Prop) (m : ℕ) (hP : P m) (hs : ∀ k ≥ m, P k → ¬ Q k → P (k + 1)) (hq : ∃ k ≥ m, Q k) :
    ∃ k ≥ m, P k ∧ Q k := by
  classical
  have hq' : ∃ k, k ≥ m ∧ Q k := hq
  refine ⟨Nat.find hq', (Nat.find_spec hq').1, ?_, (Nat.find_spec hq').2⟩
  have : ∀ j, m ≤ j → j ≤ Nat.find hq' → P j := by
    intro j hj
    induction j, hj using Nat.le_induction with
    | base => exact fun _ => hP
    | succ j hj ih =>
      intro hle
      exact hs j hj (ih (by omega)) (fun h => Nat.find_min hq' (by omega : j < Nat.find hq') ⟨hj, h⟩)
  exact this _ (Nat.find_spec hq').1 le_rfl

/-! ### One step -/

theorem notify_cams (n : ℕ) (s : WakeState) : (notifyWorker n s).feed.cams = s.feed.cams := by
  unfold notifyWorker
  split_ifs with h
  · show (workerStep n s.feed).cams = _
    unfold workerStep
    rw [h.1]
  · rfl

theorem notify_tpc (n : ℕ) (s : WakeState) : (notifyWorker n s).tpc = s.tpc := by
  unfold notifyWorker
  split_ifs <;> rfl

theorem worker_received (n : ℕ) (s : FeedState) (i : ℕ) : ((workerStep n s).cams i).received = (s.cams i).received ∧
    ((workerStep n s).cams i).stamp = (s.cams i).stamp := by
  unfold workerStep
  split
  · split_ifs <;> exact ⟨rfl, rfl⟩
  · exact ⟨rfl, rfl⟩
  · rename_i j _
    split_ifs
    · by_cases h : i = j
      · subst h; simp
      · simp [h]
    · exact ⟨rfl, rfl⟩
  · exact ⟨rfl, rfl⟩
  · exact ⟨rfl, rfl⟩

theorem worker_event_same (n : ℕ) (s : WakeState) (i : ℕ) : (wakeStep n s .worker).tpc = s.tpc ∧
    ((wakeStep n s .worker).feed.cams i).received = (s.feed.cams i).received ∧
    ((wakeStep n s .worker).feed.cams i).stamp = (s.feed.cams i).stamp := by
  unfold wakeStep
  dsimp only
  split_ifs
  · exact ⟨rfl, rfl, rfl⟩
  · exact ⟨rfl, worker_received n s.feed i⟩

theorem arrive_event (n : ℕ) (s : WakeState) (j : ℕ) (stamp : ℚ) (hj : j < n) (i : ℕ) :
    (wakeStep n s (.arrive j stamp)).tpc i =
      (if i = j ∧ s.tpc i = .asleep ∧ ¬ ((s.feed.cams i).received = true ∧ stamp - (s.feed.cams i).stamp < 3 / 10) then .look
        else s.tpc i) ∧
    ((wakeStep n s (.arrive j stamp)).feed.cams i) =
      (if i = j ∧ ¬ ((s.feed.cams i).received = true ∧ stamp - (s.feed.cams i).stamp < 3 / 10) then
        { s.feed.cams i with received := true, untransformed := s.feed.log.length, stamp := stamp }
      else s.feed.cams i) := by
  unfold wakeStep
  dsimp only
  rw [if_pos hj]
  unfold arriveStep cloudArrives
  dsimp only
  by_cases hd : (s.feed.cams j).received = true ∧ stamp - (s.feed.cams j).stamp < 3 / 10
  · rw [if_pos hd, if_pos hd]
    by_cases hij : i = j
    · subst hij
      rw [if_neg (fun h => h.2.2 hd), if_neg (fun h => h.2 hd)]
      exact ⟨rfl, rfl⟩
    · rw [if_neg (fun h => hij h.1), if_neg (fun h => hij h.1)]
      exact ⟨rfl, rfl⟩
  · rw [if_neg hd, if_neg hd]
    by_cases hij : i = j
    · subst hij
      rw [if_pos (⟨rfl, hd⟩ : _ ∧ _)]
      by_cases ha : s.tpc i = .asleep
      · rw [if_pos ha, if_pos ⟨rfl, ha, hd⟩]
        exact ⟨Function.update_self .., Function.update_self ..⟩
      · rw [if_neg ha, if_neg (fun h => ha h.2.1)]
        exact ⟨rfl, Function.update_self ..⟩
    · rw [if_neg (c := i = j ∧ _ ∧ _) (fun h => hij h.1), if_neg (c := i = j ∧ _) (fun h => hij h.1)]
      by_cases ha : s.tpc j = .asleep
      · rw [if_pos ha]
        exact ⟨Function.update_of_ne hij _ _, Function.update_of_ne hij _ _⟩
      · rw [if_neg ha]
        exact ⟨rfl, Function.update_of_ne hij _ _⟩

theorem thread_event_other (n : ℕ) (s : WakeState) (j : ℕ) (ok : Bool) (i : ℕ) (hij : i ≠ j) :
    (wakeStep n s (.thread j ok)).tpc i = s.tpc i ∧ (wakeStep n s (.thread j ok)).feed.cams i = s.feed.cams i := by
  unfold wakeStep
  dsimp only
  split_ifs
  · unfold threadStep
    split
    · split_ifs
      · rw [notify_tpc, notify_cams]
        exact ⟨Function.update_of_ne hij _ _, Function.update_of_ne hij _ _⟩
      · exact ⟨Function.update_of_ne hij _ _, rfl⟩
      · exact ⟨Function.update_of_ne hij _ _, rfl⟩
    · exact ⟨Function.update_of_ne hij _ _, rfl⟩
    · exact ⟨rfl, rfl⟩
    · exact ⟨Function.update_of_ne hij _ _, rfl⟩
  · exact ⟨rfl, rfl⟩

theorem thread_event_self (n : ℕ) (s : WakeState) (i : ℕ) (ok : Bool) (hi : i < n) :
    (s.tpc i = .look → (s.feed.cams i).received = true → ok = false → (wakeStep n s (.thread i ok)).tpc i = .tf) ∧
    (s.tpc i = .beforeSleep → (wakeStep n s (.thread i ok)).tpc i = .asleep) ∧
    (s.tpc i = .asleep → wakeStep n s (.thread i ok) = s) ∧
    (s.tpc i = .tf → (wakeStep n s (.thread i ok)).tpc i = .look) ∧
    (¬ (s.tpc i = .look ∧ (s.feed.cams i).received = true ∧ ok = true) →
      (wakeStep n s (.thread i ok)).feed = s.feed ∧ (wakeStep n s (.thread i ok)).sleeps = s.sleeps) := by
  unfold wakeStep
  dsimp only
  rw [if_pos hi]
  unfold threadStep
  refine ⟨fun h1 h2 h3 => ?_, fun h1 => ?_, fun h1 => ?_, fun h1 => ?_, fun h1 => ?_⟩
  · rw [h1]; dsimp only; rw [if_pos h2, h3]; exact Function.update_self ..
  · rw [h1]; exact Function.update_self ..
  · rw [h1]
  · rw [h1]; exact Function.update_self ..
  · split
    · rename_i hl
      split_ifs with h2 h3
      · exact absurd ⟨hl, h2, h3⟩ h1
      · exact ⟨rfl, rfl⟩
      · exact ⟨rfl, rfl⟩
    · exact ⟨rfl, rfl⟩
    · exact ⟨rfl, rfl⟩
    · exact ⟨rfl, rfl⟩

theorem timeoutThread_event (n : ℕ) (s : WakeState) (j i : ℕ) :
    (wakeStep n s (.timeoutThread j)).feed = s.feed ∧ (wakeStep n s (.timeoutThread j)).sleeps = s.sleeps ∧
    ((wakeStep n s (.timeoutThread j)).tpc i = s.tpc i ∨ (wakeStep n s (.timeoutThread j)).tpc i = .look) := by
  unfold wakeStep
  dsimp only
  split_ifs with h
  · refine ⟨rfl, rfl, ?_⟩
    by_cases hij : i = j
    · subst hij; exact Or.inr (Function.update_self ..)
    · exact Or.inl (Function.update_of_ne hij _ _)
  · exact ⟨rfl, rfl, Or.inl rfl⟩

/-! ### Every camera's clouds are transformed again and again -/

/-- Step `k` transforms a cloud of camera `i`. -/
def TransformsAt (run : ℕ → WakeState) (ev : ℕ → WakeEvent) (i k : ℕ) : Prop :=
  (run k).tpc i = .look ∧ ((run k).feed.cams i).received = true ∧ ev k = .thread i true

variable {n : ℕ} {run : ℕ → WakeState} {ev : ℕ → WakeEvent}

/-- What a step without transformation of camera `i` does to its cloud and its thread. -/
theorem quiet_step (h : FairRun n run ev) (i k : ℕ) (hi : i < n) (hn : ¬ TransformsAt run ev i k) :
    (((run k).feed.cams i).received = true → ((run (k + 1)).feed.cams i).received = true) ∧
    ((∀ stamp, ev k ≠ .arrive i stamp) → ((run (k + 1)).feed.cams i).received = ((run k).feed.cams i).received ∧
      ((run (k + 1)).feed.cams i).stamp = ((run k).feed.cams i).stamp) ∧
    ((∀ ok, ev k ≠ .thread i ok) → (run (k + 1)).tpc i = (run k).tpc i ∨ (run (k + 1)).tpc i = .look) := by
  rw [h.step k]
  cases he : ev k with
  | arrive j stamp =>
    by_cases hj : j < n
    · obtain ⟨h1, h2⟩ := arrive_event n (run k) j stamp hj i
      rw [h1, h2]
      refine ⟨fun hr => ?_, fun hne => ?_, fun _ => ?_⟩
      · split_ifs
        · rfl
        · exact hr
      · rw [if_neg (fun hc => hne stamp (by rw [hc.1]))]
        exact ⟨rfl, rfl⟩
      · split_ifs
        · exact Or.inr rfl
        · exact Or.inl rfl
    · have : wakeStep n (run k) (.arrive j stamp) = run k := if_neg hj
      rw [this]
      exact ⟨id, fun _ => ⟨rfl, rfl⟩, fun _ => Or.inl rfl⟩
  | thread j ok =>
    by_cases hij : i = j
    · subst hij
      obtain ⟨-, -, -, -, h5⟩ := thread_event_self n (run k) i ok hi
      obtain ⟨h6, -⟩ := h5 (fun hc => hn ⟨hc.1, hc.2.1, by rw [he, hc.2.2]⟩)
      rw [h6]
      exact ⟨id, fun _ => ⟨rfl, rfl⟩, fun hne => absurd rfl (hne ok)⟩
    · obtain ⟨h1, h2⟩ := thread_event_other n (run k) j ok i hij
      rw [h1, h2]
      exact ⟨id, fun _ => ⟨rfl, rfl⟩, fun _ => Or.inl rfl⟩
  | worker =>
    obtain ⟨h1, h2, h3⟩ := worker_event_same n (run k) i
    rw [h1, h2, h3]
    exact ⟨id, fun _ => ⟨rfl, rfl⟩, fun _ => Or.inl rfl⟩
  | timeoutThread j =>
    obtain ⟨h1, -, h2⟩ := timeoutThread_event n (run k) j i
    rw [h1]
    exact ⟨id, fun _ => ⟨rfl, rfl⟩, fun _ => h2⟩
  | timeoutWorker =>
    show (_ → ((notifyWorker n (run k)).feed.cams i).received = true) ∧ (_ → ((notifyWorker n (run k)).feed.cams i).received = _ ∧
      ((notifyWorker n (run k)).feed.cams i).stamp = _) ∧ (_ → (notifyWorker n (run k)).tpc i = _ ∨ _)
    rw [notify_cams, notify_tpc]
    exact ⟨id, fun _ => ⟨rfl, rfl⟩, fun _ => Or.inl rfl⟩

/-- **C90, transformation.** In a fair run every camera's clouds are transformed again and again, although
notifications of its thread may be lost. -/
theorem C90_transforms_again (h : FairRun n run ev) (i : ℕ) (hi : i < n) (m : ℕ) : ∃ k ≥ m, TransformsAt run ev i k := by
  by_contra hno
  have hno' : ∀ k ≥ m, ¬ TransformsAt run ev i k := fun k hk hc => hno ⟨k, hk, hc⟩
  -- a cloud arrives, and then there is always one waiting
  obtain ⟨k0, hk0, st, -, he0⟩ := h.clouds i hi m 0
  have hr0 : ((run (k0 + 1)).feed.cams i).received = true := by
    rw [h.step k0, he0, (arrive_event n (run k0) i st hi i).2]
    by_cases hd : ((run k0).feed.cams i).received = true ∧ st - ((run k0).feed.cams i).stamp < 3 / 10
    · rw [if_neg (fun hc => hc.2 hd)]; exact hd.1
    · rw [if_pos ⟨rfl, hd⟩]
  have hr : ∀ k ≥ k0 + 1, ((run k).feed.cams i).received = true := by
    intro k hk
    induction k, hk using Nat.le_induction with
    | base => exact hr0
    | succ k hk ih => exact (quiet_step h i k hi (hno' k (by omega))).1 ih
  -- from every place the thread gets to look again
  have fromTf : ∀ m' ≥ k0 + 1, (run m').tpc i = .tf → ∃ k ≥ m', (run k).tpc i = .look := by
    intro m' hm' ht
    obtain ⟨k, hk, hP, hQ⟩ := until_first (fun k => (run k).tpc i = .tf) (fun k => (∃ ok, ev k = .thread i ok) ∨ (run (k + 1)).tpc i = .look) m' ht
      (fun k hk hp hq => by
        rcases (quiet_step h i k hi (hno' k (by omega))).2.2 (fun ok he => hq (Or.inl ⟨ok, he⟩)) with e | e
        · exact e.trans hp
        · exact absurd (Or.inr e) hq)
      (by obtain ⟨k, hk, ok, he⟩ := h.thread i hi m'; exact ⟨k, hk, Or.inl ⟨ok, he⟩⟩)
    refine ⟨k + 1, by omega, ?_⟩
    rcases hQ with ⟨ok, he⟩ | hQ
    · rw [h.step k, he]
      exact (thread_event_self n (run k) i ok hi).2.2.2.1 hP
    · exact hQ
  have fromAsleep : ∀ m' ≥ k0 + 1, (run m').tpc i = .asleep → ∃ k ≥ m', (run k).tpc i = .look := by
    intro m' hm' ht
    obtain ⟨k, hk, ⟨hP, hst⟩, hQ⟩ := until_first
      (fun k => (run k).tpc i = .asleep ∧ ((run k).feed.cams i).stamp = ((run m').feed.cams i).stamp)
      (fun k => (∃ st, ev k = .arrive i st ∧ 3 / 10 ≤ st - ((run m').feed.cams i).stamp) ∨ (run (k + 1)).tpc i = .look) m' ⟨ht, rfl⟩
      (fun k hk hp hq => by
        by_cases hth : ∃ ok, ev k = .thread i ok
        · obtain ⟨ok, he⟩ := hth
          rw [h.step k, he, (thread_event_self n (run k) i ok hi).2.2.1 hp.1]
          exact hp
        · have htpc : (run (k + 1)).tpc i = .asleep := by
            rcases (quiet_step h i k hi (hno' k (by omega))).2.2 (fun ok he => hth ⟨ok, he⟩) with e | e
            · exact e.trans hp.1
            · exact absurd (Or.inr e) hq
          refine ⟨htpc, ?_⟩
          by_cases har : ∃ st, ev k = .arrive i st
          · obtain ⟨st, he⟩ := har
            rw [h.step k, he, (arrive_event n (run k) i st hi i).2]
            have hd : ((run k).feed.cams i).received = true ∧ st - ((run k).feed.cams i).stamp < 3 / 10 :=
              ⟨hr k (by omega), not_le.1 (fun hle => hq (Or.inl ⟨st, he, by rw [← hp.2]; exact hle⟩))⟩
            rw [if_neg (fun hc => hc.2 hd)]
            exact hp.2
          · exact ((quiet_step h i k hi (hno' k (by omega))).2.1 (fun st he => har ⟨st, he⟩)).2.trans hp.2)
      (by
        obtain ⟨k, hk, st, hst, he⟩ := h.clouds i hi m' (((run m').feed.cams i).stamp + 3 / 10)
        exact ⟨k, hk, Or.inl ⟨st, he, by linarith⟩⟩)
    refine ⟨k + 1, by omega, ?_⟩
    rcases hQ with ⟨st, he, hle⟩ | hQ
    · rw [h.step k, he, (arrive_event n (run k) i st hi i).1]
      rw [if_pos ⟨rfl, hP, fun hd => absurd hd.2 (not_lt.2 (by rw [hst]; exact hle))⟩]
    · exact hQ
  have fromBefore : ∀ m' ≥ k0 + 1, (run m').tpc i = .beforeSleep → ∃ k ≥ m', (run k).tpc i = .look := by
    intro m' hm' ht
    obtain ⟨k, hk, hP, hQ⟩ := until_first (fun k => (run k).tpc i = .beforeSleep) (fun k => (∃ ok, ev k = .thread i ok) ∨ (run (k + 1)).tpc i = .look) m' ht
      (fun k hk hp hq => by
        rcases (quiet_step h i k hi (hno' k (by omega))).2.2 (fun ok he => hq (Or.inl ⟨ok, he⟩)) with e | e
        · exact e.trans hp
        · exact absurd (Or.inr e) hq)
      (by obtain ⟨k, hk, ok, he⟩ := h.thread i hi m'; exact ⟨k, hk, Or.inl ⟨ok, he⟩⟩)
    rcases hQ with ⟨ok, he⟩ | hQ
    · have : (run (k + 1)).tpc i = .asleep := by
        rw [h.step k, he]
        exact (thread_event_self n (run k) i ok hi).2.1 hP
      obtain ⟨k', hk', hl⟩ := fromAsleep (k + 1) (by omega) this
      exact ⟨k', by omega, hl⟩
    · exact ⟨k + 1, by omega, hQ⟩
  have toLook : ∀ m' ≥ k0 + 1, ∃ k ≥ m', (run k).tpc i = .look := by
    intro m' hm'
    cases ht : (run m').tpc i with
    | look => exact ⟨m', le_rfl, ht⟩
    | beforeSleep => exact fromBefore m' hm' ht
    | asleep => exact fromAsleep m' hm' ht
    | tf => exact fromTf m' hm' ht
  -- and then looks
  have looks : ∀ m' ≥ k0 + 1, ∃ k ≥ m', LooksAt run ev i k := by
    intro m' hm'
    obtain ⟨k1, hk1, hl⟩ := toLook m' hm'
    obtain ⟨k, hk, hP, hQ⟩ := until_first (fun k => (run k).tpc i = .look) (fun k => ∃ ok, ev k = .thread i ok) k1 hl
      (fun k hk hp hq => by
        rcases (quiet_step h i k hi (hno' k (by omega))).2.2 (fun ok he => hq ⟨ok, he⟩) with e | e
        · exact e.trans hp
        · exact e)
      (h.thread i hi k1)
    exact ⟨k, by omega, hP, hr k (by omega), hQ⟩
  obtain ⟨k, hk, hl, he⟩ := h.transforms i hi (k0 + 1) looks
  exact hno' k (by omega) ⟨hl.1, hl.2.1, he⟩

/-! ### The worker -/

theorem notify_facts (n : ℕ) (s : WakeState) :
    (notifyWorker n s).feed.frames = s.feed.frames ∧
    (((notifyWorker n s).feed.pc = s.feed.pc ∧ (notifyWorker n s).sleeps = s.sleeps) ∨
      (s.feed.pc = .wait ∧ (notifyWorker n s).feed.pc = .count 0 0)) ∧
    (s.feed.pc = .wait → s.sleeps = true → (notifyWorker n s).feed.pc = .count 0 0) := by
  unfold notifyWorker
  split_ifs with h
  · have : workerStep n s.feed = { s.feed with pc := .count 0 0 } := by unfold workerStep; rw [h.1]
    rw [this]
    exact ⟨rfl, Or.inr ⟨h.1, rfl⟩, fun _ _ => rfl⟩
  · exact ⟨rfl, Or.inl ⟨rfl, rfl⟩, fun h1 h2 => absurd ⟨h1, h2⟩ h⟩

/-- What a step that is not the worker's does to the worker. -/
theorem nonworker_step (h : FairRun n run ev) (k : ℕ) (hne : ev k ≠ .worker) :
    (run (k + 1)).feed.frames = (run k).feed.frames ∧
    (∀ i, ((run k).feed.cams i).transformed = true → ((run (k + 1)).feed.cams i).transformed = true) ∧
    (((run (k + 1)).feed.pc = (run k).feed.pc ∧ (run (k + 1)).sleeps = (run k).sleeps) ∨
      ((run k).feed.pc = .wait ∧ (run (k + 1)).feed.pc = .count 0 0)) := by
  rw [h.step k]
  cases he : ev k with
  | worker => exact absurd he hne
  | arrive j stamp =>
    by_cases hj : j < n
    · refine ⟨?_, fun i hi => ?_, Or.inl ?_⟩
      · unfold wakeStep arriveStep cloudArrives
        dsimp only
        split_ifs <;> rfl
      · rw [(arrive_event n (run k) j stamp hj i).2]
        split_ifs <;> exact hi
      · unfold wakeStep arriveStep cloudArrives
        dsimp only
        split_ifs <;> exact ⟨rfl, rfl⟩
    · have : wakeStep n (run k) (.arrive j stamp) = run k := if_neg hj
      rw [this]
      exact ⟨rfl, fun _ => id, Or.inl ⟨rfl, rfl⟩⟩
  | thread j ok =>
    by_cases hj : j < n
    · by_cases ht : (run k).tpc j = .look ∧ ((run k).feed.cams j).received = true ∧ ok = true
      · have : wakeStep n (run k) (.thread j ok) = notifyWorker n { run k with feed := cloudTransformed (run k).feed j, tpc := Function.update (run k).tpc j .beforeSleep } := by
          unfold wakeStep
          dsimp only
          rw [if_pos hj]
          unfold threadStep
          rw [ht.1]
          dsimp only
          rw [if_pos ht.2.1, if_pos ht.2.2]
        rw [this]
        obtain ⟨h1, h2, -⟩ := notify_facts n { run k with feed := cloudTransformed (run k).feed j, tpc := Function.update (run k).tpc j .beforeSleep }
        refine ⟨h1, fun i hi => ?_, h2⟩
        rw [notify_cams]
        show ((Function.update (run k).feed.cams j _) i).transformed = true
        by_cases hij : i = j
        · subst hij; rw [Function.update_self]
        · rw [Function.update_of_ne hij]; exact hi
      · obtain ⟨h1, h2⟩ := (thread_event_self n (run k) j ok hj).2.2.2.2 ht
        rw [h1, h2]
        exact ⟨rfl, fun _ => id, Or.inl ⟨rfl, rfl⟩⟩
    · have : wakeStep n (run k) (.thread j ok) = run k := if_neg hj
      rw [this]
      exact ⟨rfl, fun _ => id, Or.inl ⟨rfl, rfl⟩⟩
  | timeoutThread j =>
    obtain ⟨h1, h2, -⟩ := timeoutThread_event n (run k) j 0
    rw [h1, h2]
    exact ⟨rfl, fun _ => id, Or.inl ⟨rfl, rfl⟩⟩
  | timeoutWorker =>
    obtain ⟨h1, h2, -⟩ := notify_facts n (run k)
    refine ⟨h1, fun i hi => ?_, h2⟩
    show ((notifyWorker n (run k)).feed.cams i).transformed = true
    rw [notify_cams]; exact hi

/-- A transformation wakes a sleeping worker. -/
theorem transform_wakes (h : FairRun n run ev) (i k : ℕ) (hi : i < n) (ht : TransformsAt run ev i k)
    (hp : (run k).feed.pc = .wait) (hs : (run k).sleeps = true) : (run (k + 1)).feed.pc = .count 0 0 := by
  rw [h.step k, ht.2.2]
  unfold wakeStep
  dsimp only
  rw [if_pos hi]
  unfold threadStep
  rw [ht.1]
  dsimp only
  rw [if_pos ht.2.1, if_pos rfl]
  exact (notify_facts n _).2.2 hp hs

theorem transform_sets (h : FairRun n run ev) (i k : ℕ) (hi : i < n) (ht : TransformsAt run ev i k) :
    ((run (k + 1)).feed.cams i).transformed = true := by
  rw [h.step k, ht.2.2]
  unfold wakeStep
  dsimp only
  rw [if_pos hi]
  unfold threadStep
  rw [ht.1]
  dsimp only
  rw [if_pos ht.2.1, if_pos rfl, notify_cams]
  show ((Function.update (run k).feed.cams i _) i).transformed = true
  rw [Function.update_self]

/-- While the worker is not about to wait, it stays where it is until it is scheduled, and then takes its step. -/
theorem worker_next (h : FairRun n run ev) (k : ℕ) (hp : (run k).feed.pc ≠ .wait) :
    ∃ k' ≥ k, (run k').feed.pc = (run k).feed.pc ∧ (run (k' + 1)).feed = workerStep n (run k').feed ∧
      (run (k' + 1)).sleeps = false := by
  obtain ⟨k', hk', hP, hQ⟩ := until_first (fun j => (run j).feed.pc = (run k).feed.pc) (fun j => ev j = .worker) k rfl
    (fun j _ hj hq => by
      rcases (nonworker_step h j hq).2.2 with e | e
      · exact e.1.trans hj
      · exact absurd (hj.symm.trans e.1) hp) (h.worker k)
  refine ⟨k', hk', hP, ?_⟩
  have : run (k' + 1) = { run k' with feed := workerStep n (run k').feed, sleeps := false } := by
    rw [h.step k', hQ]
    unfold wakeStep
    dsimp only
    rw [if_neg (by rw [hP]; exact hp)]
  rw [this]
  exact ⟨rfl, rfl⟩

/-- Once the worker has seen all clouds it plans. -/
theorem swap_plans (h : FairRun n run ev) : ∀ (d i k : ℕ), n - i = d → (run k).feed.pc = .swap i →
    ∃ k' ≥ k, (run (k' + 1)).feed.frames = (run k').feed.frames ++ [(run k').feed.frame] := by
  have atRun : ∀ k, (run k).feed.pc = .run → ∃ k' ≥ k, (run (k' + 1)).feed.frames = (run k').feed.frames ++ [(run k').feed.frame] := by
    intro k hp
    obtain ⟨k', hk', h1, h2, -⟩ := worker_next h k (by rw [hp]; simp)
    refine ⟨k', hk', ?_⟩
    rw [h2]
    unfold workerStep
    rw [h1, hp]
  intro d
  induction d with
  | zero =>
    intro i k hd hp
    obtain ⟨k', hk', h1, h2, -⟩ := worker_next h k (by rw [hp]; simp)
    have : (run (k' + 1)).feed.pc = .run := by
      rw [h2]
      unfold workerStep
      rw [h1, hp]
      dsimp only
      rw [if_neg (by omega)]
    obtain ⟨k'', hk'', hf⟩ := atRun (k' + 1) this
    exact ⟨k'', by omega, hf⟩
  | succ d ih =>
    intro i k hd hp
    obtain ⟨k', hk', h1, h2, -⟩ := worker_next h k (by rw [hp]; simp)
    have : (run (k' + 1)).feed.pc = .swap (i + 1) := by
      rw [h2]
      unfold workerStep
      rw [h1, hp]
      dsimp only
      rw [if_pos (by omega)]
    obtain ⟨k'', hk'', hf⟩ := ih (i + 1) (k' + 1) (by omega) this
    exact ⟨k'', by omega, hf⟩

/-- **C90.** In every fair run with at least one camera the planner is run again and again: notifications
can be lost, but never so that the node stops planning while sensor data comes in, and this does not
depend on the time-outs of 5 s. -/
theorem C90_plans_again (h : FairRun n run ev) (hn : 0 < n) (m : ℕ) :
    ∃ k ≥ m, (run (k + 1)).feed.frames = (run k).feed.frames ++ [(run k).feed.frame] := by
  by_contra hno
  have noSwap : ∀ k ≥ m, ∀ i, (run k).feed.pc ≠ .swap i := fun k hk i hp =>
    hno (let ⟨k', hk', hf⟩ := swap_plans h _ i k rfl hp; ⟨k', by omega, hf⟩)
  have noRun : ∀ k ≥ m, (run k).feed.pc ≠ .run := by
    intro k hk hp
    obtain ⟨k', hk', h1, h2, -⟩ := worker_next h k (by rw [hp]; simp)
    refine hno ⟨k', by omega, ?_⟩
    rw [h2]
    unfold workerStep
    rw [h1, hp]
  have noDone : ∀ k, (run k).feed.pc ≠ .done := by
    intro k
    induction k with
    | zero => rw [h.start]; decide
    | succ k ih =>
      by_cases hw : ev k = .worker
      · rw [h.step k, hw]
        unfold wakeStep
        dsimp only
        split_ifs with hp
        · exact ih
        · show (workerStep n (run k).feed).pc ≠ .done
          unfold workerStep
          split
          · split_ifs <;> intro hc <;> cases hc
          · intro hc; cases hc
          · split_ifs <;> intro hc <;> cases hc
          · intro hc; cases hc
          · rename_i hc; exact absurd hc ih
      · rcases (nonworker_step h k hw).2.2 with e | e
        · rw [e.1]; exact ih
        · rw [e.2]; decide
  -- transformed clouds stay
  have mono : ∀ k ≥ m, ∀ i, ((run k).feed.cams i).transformed = true → ((run (k + 1)).feed.cams i).transformed = true := by
    intro k hk i hi
    by_cases hw : ev k = .worker
    · rw [h.step k, hw]
      unfold wakeStep
      dsimp only
      split_ifs with hp
      · exact hi
      · show ((workerStep n (run k).feed).cams i).transformed = true
        unfold workerStep
        split
        · split_ifs <;> exact hi
        · exact hi
        · rename_i j hj; exact absurd hj (noSwap k hk j)
        · exact hi
        · exact hi
    · exact (nonworker_step h k hw).2.1 i hi
  have mono' : ∀ k ≥ m, ∀ i, ((run k).feed.cams i).transformed = true → ∀ k' ≥ k, ((run k').feed.cams i).transformed = true := by
    intro k hk i hi k' hk'
    induction k', hk' using Nat.le_induction with
    | base => exact hi
    | succ k' hk' ih => exact mono k' (by omega) i ih
  -- all cameras are transformed some time
  have all : ∀ j ≤ n, ∃ k ≥ m, ∀ i < j, ∀ k' ≥ k, ((run k').feed.cams i).transformed = true := by
    intro j
    induction j with
    | zero => exact fun _ => ⟨m, le_rfl, fun i hi => absurd hi (Nat.not_lt_zero i)⟩
    | succ j ih =>
      intro hj
      obtain ⟨k, hk, hall⟩ := ih (by omega)
      obtain ⟨k1, hk1, ht⟩ := C90_transforms_again h j (by omega) k
      refine ⟨k1 + 1, by omega, fun i hi k' hk' => ?_⟩
      by_cases hij : i = j
      · subst hij
        exact mono' (k1 + 1) (by omega) i (transform_sets h i k1 (by omega) ht) k' hk'
      · exact hall i (by omega) k' (by omega)
  obtain ⟨m2, hm2, hall⟩ := all n le_rfl
  -- the worker starts counting again
  have fromSleep : ∀ k ≥ m2, (run k).feed.pc = .wait → ∃ k' ≥ k, (run k').feed.pc = .count 0 0 := by
    intro k hk hp
    obtain ⟨k1, hk1, hP1, hQ1⟩ := until_first (fun j => (run j).feed.pc = .wait) (fun j => ev j = .worker ∨ (run (j + 1)).feed.pc = .count 0 0) k hp
      (fun j _ hj hq => by
        rcases (nonworker_step h j (fun he => hq (Or.inl he))).2.2 with e | e
        · exact e.1.trans hj
        · exact absurd (Or.inr e.2) hq)
      (by obtain ⟨j, hj, he⟩ := h.worker k; exact ⟨j, hj, Or.inl he⟩)
    rcases hQ1 with he | hQ1
    · have hs : (run (k1 + 1)).feed.pc = .wait ∧ (run (k1 + 1)).sleeps = true := by
        rw [h.step k1, he]
        unfold wakeStep
        dsimp only
        rw [if_pos hP1]
        exact ⟨hP1, rfl⟩
      obtain ⟨k2, hk2, hP2, hQ2⟩ := until_first (fun j => (run j).feed.pc = .wait ∧ (run j).sleeps = true)
        (fun j => TransformsAt run ev 0 j ∨ (run (j + 1)).feed.pc = .count 0 0) (k1 + 1) hs
        (fun j _ hj hq => by
          by_cases hw : ev j = .worker
          · rw [h.step j, hw]
            unfold wakeStep
            dsimp only
            rw [if_pos hj.1]
            exact ⟨hj.1, rfl⟩
          · rcases (nonworker_step h j hw).2.2 with e | e
            · exact ⟨e.1.trans hj.1, e.2.trans hj.2⟩
            · exact absurd (Or.inr e.2) hq)
        (by obtain ⟨j, hj, ht⟩ := C90_transforms_again h 0 hn (k1 + 1); exact ⟨j, hj, Or.inl ht⟩)
      refine ⟨k2 + 1, by omega, ?_⟩
      rcases hQ2 with ht | hQ2
      · exact transform_wakes h 0 k2 hn ht hP2.1 hP2.2
      · exact hQ2
    · exact ⟨k1 + 1, by omega, hQ1⟩
  have fromCount : ∀ (d i c k : ℕ), n - i = d → k ≥ m2 → (run k).feed.pc = .count i c → ∃ k' ≥ k, (run k').feed.pc = .wait := by
    intro d
    induction d with
    | zero =>
      intro i c k hd hk hp
      obtain ⟨k', hk', h1, h2, -⟩ := worker_next h k (by rw [hp]; simp)
      refine ⟨k' + 1, by omega, ?_⟩
      have hne := noSwap (k' + 1) (by omega) 0
      rw [h2] at hne ⊢
      unfold workerStep at hne ⊢
      rw [h1, hp] at hne ⊢
      dsimp only at hne ⊢
      rw [if_neg (show ¬ i < n by omega)] at hne ⊢
      by_cases hc : n = 0 ∨ n ≠ c
      · rw [if_pos hc]
      · rw [if_neg hc] at hne
        exact absurd rfl hne
    | succ d ih =>
      intro i c k hd hk hp
      obtain ⟨k', hk', h1, h2, -⟩ := worker_next h k (by rw [hp]; simp)
      have : ∃ c', (run (k' + 1)).feed.pc = .count (i + 1) c' := by
        rw [h2]
        unfold workerStep
        rw [h1, hp]
        dsimp only
        rw [if_pos (show i < n by omega)]
        exact ⟨_, rfl⟩
      obtain ⟨c', hc'⟩ := this
      obtain ⟨k'', hk'', hw⟩ := ih (i + 1) c' (k' + 1) (by omega) (by omega) hc'
      exact ⟨k'', by omega, hw⟩
  have counting : ∃ k ≥ m2, (run k).feed.pc = .count 0 0 := by
    cases hp : (run m2).feed.pc with
    | count i c =>
      obtain ⟨k, hk, hw⟩ := fromCount _ i c m2 rfl le_rfl hp
      obtain ⟨k', hk', hc⟩ := fromSleep k hk hw
      exact ⟨k', by omega, hc⟩
    | wait => exact fromSleep m2 le_rfl hp
    | swap i => exact absurd hp (noSwap m2 hm2 i)
    | run => exact absurd hp (noRun m2 hm2)
    | done => exact absurd hp (noDone m2)
  obtain ⟨k0, hk0, hp0⟩ := counting
  -- and finds them all
  have up : ∀ i ≤ n, ∃ k ≥ m2, (run k).feed.pc = .count i i := by
    intro i
    induction i with
    | zero => exact fun _ => ⟨k0, hk0, hp0⟩
    | succ i ih =>
      intro hi
      obtain ⟨k, hk, hp⟩ := ih (by omega)
      obtain ⟨k', hk', h1, h2, -⟩ := worker_next h k (by rw [hp]; simp)
      refine ⟨k' + 1, by omega, ?_⟩
      rw [h2]
      unfold workerStep
      rw [h1, hp]
      dsimp only
      rw [if_pos (show i < n by omega), hall i (by omega) k' (by omega)]
      rfl
  obtain ⟨k, hk, hp⟩ := up n le_rfl
  obtain ⟨k', hk', h1, h2, -⟩ := worker_next h k (by rw [hp]; simp)
  refine noSwap (k' + 1) (by omega) 0 ?_
  rw [h2]
  unfold workerStep
  rw [h1, hp]
  dsimp only
  rw [if_neg (lt_irrefl n), if_neg (by omega)]

/-! ### A fair run -/

/-- Clouds of all cameras, steps of all threads, a step of the worker, over and over. -/
def roundRobin (n k : ℕ) : WakeEvent :=
  let r := k % (2 * n + 1)
  if r < n then .arrive r k else if r < 2 * n then .thread (r - n) true else .worker

/-- The run with these events. -/
def roundRobinRun (n : ℕ) : ℕ → WakeState
  | 0 => wakeInit
  | k + 1 => wakeStep n (roundRobinRun n k) (roundRobin n k)

/-- Fair runs exist for every number of cameras. -/
theorem roundRobin_fair (n : ℕ) : FairRun n (roundRobinRun n) (roundRobin n) := by
  have hmod : ∀ a r, r < 2 * n + 1 → ((2 * n + 1) * a + r) % (2 * n + 1) = r := fun a r hr => by
    rw [Nat.mul_add_mod]; exact Nat.mod_eq_of_lt hr
  have hge : ∀ a r, a ≤ (2 * n + 1) * a + r := fun a r => by nlinarith [Nat.zero_le (n * a)]
  refine ⟨rfl, fun k => rfl, fun m => ?_, fun i hi m => ?_, fun i hi m b => ?_, fun i hi m hl => ?_⟩
  · refine ⟨(2 * n + 1) * m + 2 * n, hge _ _, ?_⟩
    unfold roundRobin
    rw [hmod m (2 * n) (by omega)]
    dsimp only
    rw [if_neg (by omega), if_neg (by omega)]
  · refine ⟨(2 * n + 1) * m + (n + i), hge _ _, true, ?_⟩
    unfold roundRobin
    rw [hmod m (n + i) (by omega)]
    dsimp only
    rw [if_neg (by omega), if_pos (by omega), show n + i - n = i by omega]
  · obtain ⟨c, hc⟩ := exists_nat_ge b
    refine ⟨(2 * n + 1) * (m + c) + i, le_trans (by omega : m ≤ m + c) (hge _ _), (((2 * n + 1) * (m + c) + i : ℕ) : ℚ), ?_, ?_⟩
    · refine le_trans hc ?_
      exact_mod_cast le_trans (by omega : c ≤ m + c) (hge (m + c) i)
    · unfold roundRobin
      rw [hmod (m + c) i (by omega)]
      dsimp only
      rw [if_pos hi]
  · obtain ⟨k, hk, h1, h2, ok, h3⟩ := hl m le_rfl
    refine ⟨k, hk, ⟨h1, h2, ok, h3⟩, ?_⟩
    rw [h3]
    have h4 := h3
    unfold roundRobin at h4
    dsimp only at h4
    split_ifs at h4
    injection h4 with h5 h6
    rw [← h6]

example : ∃ k ≥ 100, (roundRobinRun 3 (k + 1)).feed.frames = (roundRobinRun 3 k).feed.frames ++ [(roundRobinRun 3 k).feed.frame] :=
  C90_plans_again (roundRobin_fair 3) (by decide) 100

/-! ### Lost notifications -/

/-- Events that bring no cloud that is 0.3 s newer than the one waiting, and no time-out. -/
def WakeEvent.Quiet : WakeEvent → Prop
  | .arrive _ stamp => stamp < 3 / 10
  | .timeoutThread _ => False
  | .timeoutWorker => False
  | _ => True

/-- **C90, violated (finding): a cloud can be left lying.** A cloud that arrives while the camera's thread
is on its way to sleep is not noticed: it is waiting, the thread sleeps, and nothing is planned, whatever
the threads do and however many clouds arrive with time stamps less than 0.3 s later – they are dropped
without waking the thread – until one is newer or 5 s have passed. -/
theorem C90_cloud_not_noticed_violated (es : List WakeEvent) (hq : ∀ e ∈ es, e.Quiet) :
    let s := (([.thread 0 true, .arrive 0 0, .thread 0 true] : List WakeEvent) ++ es).foldl (wakeStep 1) wakeInit
    (s.feed.cams 0).received = true ∧ s.tpc 0 = .asleep ∧ s.feed.frames = [] := by
  rw [List.foldl_append]
  let P : WakeState → Prop := fun s => (s.feed.cams 0).received = true ∧ (s.feed.cams 0).stamp = 0 ∧ s.tpc 0 = .asleep ∧
    (s.feed.cams 0).transformed = false ∧ s.feed.frames = [] ∧ (s.feed.pc = .wait ∨ s.feed.pc = .count 0 0 ∨ s.feed.pc = .count 1 0)
  have step : ∀ s e, e.Quiet → P s → P (wakeStep 1 s e) := by
    rintro s e he ⟨h1, h2, h3, h4, h5, h6⟩
    cases e with
    | arrive i stamp =>
      by_cases hi : i < 1
      · obtain rfl : i = 0 := by omega
        obtain ⟨a1, a2⟩ := arrive_event 1 s 0 stamp hi 0
        have hd : (s.feed.cams 0).received = true ∧ stamp - (s.feed.cams 0).stamp < 3 / 10 := ⟨h1, by rw [h2, sub_zero]; exact he⟩
        rw [if_neg (fun hc => hc.2.2 hd)] at a1
        rw [if_neg (fun hc => hc.2 hd)] at a2
        have a3 : (wakeStep 1 s (.arrive 0 stamp)).feed.frames = s.feed.frames ∧
            (wakeStep 1 s (.arrive 0 stamp)).feed.pc = s.feed.pc := by
          unfold wakeStep arriveStep cloudArrives
          dsimp only
          split_ifs <;> exact ⟨rfl, rfl⟩
        refine ⟨?_, ?_, ?_, ?_, ?_, ?_⟩
        · rw [a2]; exact h1
        · rw [a2]; exact h2
        · rw [a1]; exact h3
        · rw [a2]; exact h4
        · rw [a3.1]; exact h5
        · rw [a3.2]; exact h6
      · have : wakeStep 1 s (.arrive i stamp) = s := if_neg hi
        rw [this]; exact ⟨h1, h2, h3, h4, h5, h6⟩
    | thread i ok =>
      by_cases hi : i < 1
      · obtain rfl : i = 0 := by omega
        rw [(thread_event_self 1 s 0 ok hi).2.2.1 h3]
        exact ⟨h1, h2, h3, h4, h5, h6⟩
      · have : wakeStep 1 s (.thread i ok) = s := if_neg hi
        rw [this]; exact ⟨h1, h2, h3, h4, h5, h6⟩
    | worker =>
      unfold wakeStep
      dsimp only
      split_ifs with hp
      · exact ⟨h1, h2, h3, h4, h5, h6⟩
      · rcases h6 with h6 | h6 | h6
        · exact absurd h6 hp
        · have : workerStep 1 s.feed = { s.feed with pc := .count 1 0 } := by
            unfold workerStep; rw [h6]; dsimp only; rw [if_pos (by decide), h4]; rfl
          rw [this]
          exact ⟨h1, h2, h3, h4, h5, Or.inr (Or.inr rfl)⟩
        · have : workerStep 1 s.feed = { s.feed with pc := .wait } := by
            unfold workerStep; rw [h6]; dsimp only; rw [if_neg (by decide), if_pos (by decide)]
          rw [this]
          exact ⟨h1, h2, h3, h4, h5, Or.inl rfl⟩
    | timeoutThread i => exact absurd he id
    | timeoutWorker => exact absurd he id
  have all : ∀ (es : List WakeEvent) s, (∀ e ∈ es, e.Quiet) → P s → P (es.foldl (wakeStep 1) s) := by
    intro es
    induction es with
    | nil => exact fun s _ h => h
    | cons e es ih =>
      exact fun s hq h => ih _ (fun e' he' => hq e' (List.mem_cons_of_mem _ he')) (step s e (hq e List.mem_cons_self) h)
  have h0 : P (([.thread 0 true, .arrive 0 0, .thread 0 true] : List WakeEvent).foldl (wakeStep 1) wakeInit) := by
    refine ⟨?_, ?_, ?_, ?_, ?_, ?_⟩ <;> simp [wakeStep, threadStep, arriveStep, cloudArrives, wakeInit, feedInit]
  obtain ⟨h1, -, h3, -, h5, -⟩ := all es _ hq h0
  exact ⟨h1, h3, h5⟩

/-- **C90, violated (finding): a complete frame can be left lying.** If the last cloud is transformed between
the worker's counting and its going to sleep, the notification is lost: all clouds are there, the worker
sleeps, and nothing is planned, whatever the threads do, until another cloud arrives or 5 s have passed.
(The watchdog of C21 stops the vehicle after 0.5 s.) -/
theorem C90_frame_not_noticed_violated (es : List WakeEvent)
    (hq : ∀ e ∈ es, (∃ i ok, e = .thread i ok) ∨ e = .worker) :
    let s := (([.arrive 0 0, .worker, .worker, .thread 0 true, .worker] : List WakeEvent) ++ es).foldl (wakeStep 1) wakeInit
    (s.feed.cams 0).transformed = true ∧ s.feed.pc = .wait ∧ s.feed.frames = [] := by
  rw [List.foldl_append]
  let P : WakeState → Prop := fun s => (s.feed.cams 0).received = false ∧ (s.feed.cams 0).transformed = true ∧
    s.feed.frames = [] ∧ s.feed.pc = .wait
  have step : ∀ s e, ((∃ i ok, e = .thread i ok) ∨ e = .worker) → P s → P (wakeStep 1 s e) := by
    rintro s e he ⟨h1, h2, h3, h4⟩
    rcases he with ⟨i, ok, rfl⟩ | rfl
    · by_cases hi : i < 1
      · obtain rfl : i = 0 := by omega
        obtain ⟨a1, -⟩ := (thread_event_self 1 s 0 ok hi).2.2.2.2 (fun hc => by rw [h1] at hc; exact absurd hc.2.1 (by decide))
        show (_ = _ ∧ _ = _ ∧ _ = _ ∧ _ = _)
        rw [a1]
        exact ⟨h1, h2, h3, h4⟩
      · have : wakeStep 1 s (.thread i ok) = s := if_neg hi
        rw [this]; exact ⟨h1, h2, h3, h4⟩
    · unfold wakeStep
      dsimp only
      rw [if_pos h4]
      exact ⟨h1, h2, h3, h4⟩
  have all : ∀ (es : List WakeEvent) s, (∀ e ∈ es, (∃ i ok, e = .thread i ok) ∨ e = .worker) → P s → P (es.foldl (wakeStep 1) s) := by
    intro es
    induction es with
    | nil => exact fun s _ h => h
    | cons e es ih =>
      exact fun s hq h => ih _ (fun e' he' => hq e' (List.mem_cons_of_mem _ he')) (step s e (hq e List.mem_cons_self) h)
  have h0 : P (([.arrive 0 0, .worker, .worker, .thread 0 true, .worker] : List WakeEvent).foldl (wakeStep 1) wakeInit) := by
    refine ⟨?_, ?_, ?_, ?_⟩ <;>
      simp [wakeStep, threadStep, arriveStep, cloudArrives, cloudTransformed, workerStep, notifyWorker, wakeInit, feedInit]
  obtain ⟨-, h2, h3, h4⟩ := all es _ hq h0
  exact ⟨h2, h4, h3⟩

end Avoidance
