import Verif.Nodelet
import Verif.WpGenSpeed
import Verif.AvoidanceNodeProps

/-!
# C40, C41, C67: the local planner nodelet
-/

namespace Avoidance
set_option linter.unusedSectionVars false

/-! ## C40: complete sensor frames -/

/-- Cloud `k` came from camera `i`, after every cloud of that camera the planner has been run with. -/
def FreshCloud (s : FeedState) (i k : ℕ) : Prop :=
  s.log[k]? = some i ∧ ∀ f ∈ s.frames, ∀ k', f i = some k' → k' < k

/-- Cameras already handed over in this cycle (`j` below the counter) and not yet. -/
def swapped : WorkerPc → ℕ → Prop
  | .swap i, j => j < i
  | .run, _ => True
  | _, _ => False

/-- The invariant of the hand-over. -/
structure FeedInv (n : ℕ) (s : FeedState) : Prop where
  recv : ∀ i < n, (s.cams i).received = true → FreshCloud s i (s.cams i).untransformed
  tr : ∀ i < n, (s.cams i).transformed = true → ∃ k, (s.cams i).transformed_cloud = some k ∧ FreshCloud s i k ∧
    ((s.cams i).received = true → k < (s.cams i).untransformed)
  count : ∀ i c, s.pc = .count i c → i ≤ n ∧ c ≤ i ∧ (c = i → ∀ j < i, (s.cams j).transformed = true)
  swap : ∀ i, s.pc = .swap i → i ≤ n ∧ ∀ j, i ≤ j → j < n → (s.cams j).transformed = true
  pos : ∀ i, (s.pc = .swap i ∨ s.pc = .run) → 0 < n
  taken : ∀ i < n, swapped s.pc i → ∃ k, s.frame i = some k ∧ FreshCloud s i k ∧
    ((s.cams i).received = true → k < (s.cams i).untransformed) ∧
    ((s.cams i).transformed = true → ∀ k', (s.cams i).transformed_cloud = some k' → k < k')
  frames_ok : ∀ f ∈ s.frames, 0 < n ∧ ∀ i < n, ∃ k, f i = some k ∧ s.log[k]? = some i
  frames_inc : s.frames.Pairwise fun f g => ∀ i < n, ∀ k k', f i = some k → g i = some k' → k < k'

theorem feedInv_init (n : ℕ) : FeedInv n feedInit := by
  constructor
  · intro i _ h; simp [feedInit] at h
  · intro i _ h; simp [feedInit] at h
  · intro i c h
    simp [feedInit] at h
    obtain ⟨rfl, rfl⟩ := h
    exact ⟨Nat.zero_le _, le_refl _, fun _ j hj => absurd hj (Nat.not_lt_zero j)⟩
  · intro i h; simp [feedInit] at h
  · intro i h; simp [feedInit] at h
  · intro i _ h; simp [feedInit, swapped] at h
  · intro f h; simp [feedInit] at h
  · simp [feedInit]

theorem FreshCloud.log_mono {s s' : FeedState} {i k : ℕ} (h : FreshCloud s i k) (hf : s'.frames = s.frames)
    (hl : ∃ a, s'.log = s.log ++ a) : FreshCloud s' i k := by
  obtain ⟨a, ha⟩ := hl
  refine ⟨?_, by rw [hf]; exact h.2⟩
  rw [ha, List.getElem?_append_left]
  · exact h.1
  · have := h.1
    rw [List.getElem?_eq_some_iff] at this
    exact this.1

theorem FreshCloud.lt_length {s : FeedState} {i k : ℕ} (h : FreshCloud s i k) : k < s.log.length := by
  have := h.1
  rw [List.getElem?_eq_some_iff] at this
  exact this.1

theorem feedInv_arrive {n : ℕ} {s : FeedState} (h : FeedInv n s) (i : ℕ) (stamp : ℚ) :
    FeedInv n (cloudArrives s i stamp) := by
  have lg : ∀ k j : ℕ, s.log[k]? = some j → (s.log ++ [i])[k]? = some j := by
    intro k j hk
    rw [List.getElem?_append_left]
    · exact hk
    · rw [List.getElem?_eq_some_iff] at hk; exact hk.1
  unfold cloudArrives
  dsimp only
  by_cases hd : (s.cams i).received = true ∧ stamp - (s.cams i).stamp < 3 / 10
  · rw [if_pos hd]
    have mono : ∀ j k, FreshCloud s j k → FreshCloud { s with log := s.log ++ [i] } j k :=
      fun j k hk => ⟨lg _ _ hk.1, hk.2⟩
    constructor
    · exact fun j hj hr => mono _ _ (h.recv j hj hr)
    · intro j hj ht
      obtain ⟨k, a, b, c⟩ := h.tr j hj ht
      exact ⟨k, a, mono _ _ b, c⟩
    · exact h.count
    · exact h.swap
    · exact h.pos
    · intro j hj hs
      obtain ⟨k, a, b, c⟩ := h.taken j hj hs
      exact ⟨k, a, mono _ _ b, c⟩
    · intro f hf
      refine ⟨(h.frames_ok f hf).1, fun j hj => ?_⟩
      obtain ⟨k, a, b⟩ := (h.frames_ok f hf).2 j hj
      exact ⟨k, a, lg _ _ b⟩
    · exact h.frames_inc
  · rw [if_neg hd]
    set s' : FeedState := { cams := Function.update s.cams i { s.cams i with received := true, untransformed := s.log.length, stamp := stamp }, pc := s.pc, frame := s.frame, log := s.log ++ [i], frames := s.frames } with hs'
    have mono : ∀ j k, FreshCloud s j k → FreshCloud s' j k := fun j k hk => ⟨lg _ _ hk.1, hk.2⟩
    have new : i < n → FreshCloud s' i s.log.length := by
      intro hi
      refine ⟨by rw [hs']; simp, fun f hf k' hk' => ?_⟩
      obtain ⟨k, a, b⟩ := (h.frames_ok f hf).2 i hi
      rw [hk', Option.some.injEq] at a
      subst a
      rw [List.getElem?_eq_some_iff] at b
      exact b.1
    constructor
    · intro j hj hr
      by_cases hji : j = i
      · subst hji; rw [hs']; simp only [Function.update_self]; exact new hj
      · have : s'.cams j = s.cams j := by rw [hs']; simp [hji]
        rw [this] at hr ⊢
        exact mono _ _ (h.recv j hj hr)
    · intro j hj ht
      by_cases hji : j = i
      · subst hji
        rw [hs'] at ht ⊢
        simp only [Function.update_self] at ht ⊢
        obtain ⟨k, a, b, c⟩ := h.tr j hj ht
        exact ⟨k, a, mono _ _ b, fun _ => b.lt_length⟩
      · have : s'.cams j = s.cams j := by rw [hs']; simp [hji]
        rw [this] at ht ⊢
        obtain ⟨k, a, b, c⟩ := h.tr j hj ht
        exact ⟨k, a, mono _ _ b, c⟩
    · intro a c hc
      obtain ⟨h1, h2, h3⟩ := h.count a c hc
      refine ⟨h1, h2, fun e j hj => ?_⟩
      by_cases hji : j = i
      · subst hji; rw [hs']; simp only [Function.update_self]; exact h3 e j hj
      · rw [hs']; simp only [Function.update_of_ne hji]; exact h3 e j hj
    · intro a hc
      obtain ⟨h1, h2⟩ := h.swap a hc
      refine ⟨h1, fun j hj hj2 => ?_⟩
      by_cases hji : j = i
      · subst hji; rw [hs']; simp only [Function.update_self]; exact h2 j hj hj2
      · rw [hs']; simp only [Function.update_of_ne hji]; exact h2 j hj hj2
    · exact h.pos
    · intro j hj hs
      obtain ⟨k, a, b, c, d⟩ := h.taken j hj hs
      refine ⟨k, a, mono _ _ b, ?_⟩
      by_cases hji : j = i
      · subst hji
        rw [hs']
        simp only [Function.update_self]
        exact ⟨fun _ => b.lt_length, d⟩
      · have : s'.cams j = s.cams j := by rw [hs']; simp [hji]
        rw [this]; exact ⟨c, d⟩
    · intro f hf
      refine ⟨(h.frames_ok f hf).1, fun j hj => ?_⟩
      obtain ⟨k, a, b⟩ := (h.frames_ok f hf).2 j hj
      exact ⟨k, a, lg _ _ b⟩
    · exact h.frames_inc

theorem feedInv_transform {n : ℕ} {s : FeedState} (h : FeedInv n s) (i : ℕ) (hi : i < n)
    (hr : (s.cams i).received = true) : FeedInv n (cloudTransformed s i) := by
  unfold cloudTransformed
  dsimp only
  set s' : FeedState := { cams := Function.update s.cams i { s.cams i with transformed := true, received := false, transformed_cloud := some (s.cams i).untransformed }, pc := s.pc, frame := s.frame, log := s.log, frames := s.frames } with hs'
  have mono : ∀ j k, FreshCloud s j k → FreshCloud s' j k := fun j k hk => hk
  have other : ∀ j, j ≠ i → s'.cams j = s.cams j := fun j hj => by rw [hs']; simp [hj]
  have self : s'.cams i = { s.cams i with transformed := true, received := false, transformed_cloud := some (s.cams i).untransformed } := by rw [hs']; simp
  constructor
  · intro j hj hrj
    by_cases hji : j = i
    · subst hji; rw [self] at hrj; simp at hrj
    · rw [other j hji] at hrj ⊢; exact mono _ _ (h.recv j hj hrj)
  · intro j hj ht
    by_cases hji : j = i
    · subst hji; rw [self]
      exact ⟨_, rfl, mono _ _ (h.recv j hj hr), fun h' => by simp at h'⟩
    · rw [other j hji] at ht ⊢; exact h.tr j hj ht
  · intro a c hc
    obtain ⟨h1, h2, h3⟩ := h.count a c hc
    refine ⟨h1, h2, fun e j hj => ?_⟩
    by_cases hji : j = i
    · subst hji; rw [self]
    · rw [other j hji]; exact h3 e j hj
  · intro a hc
    obtain ⟨h1, h2⟩ := h.swap a hc
    refine ⟨h1, fun j hj hj2 => ?_⟩
    by_cases hji : j = i
    · subst hji; rw [self]
    · rw [other j hji]; exact h2 j hj hj2
  · exact h.pos
  · intro j hj hs
    obtain ⟨k, a, b, c, d⟩ := h.taken j hj hs
    refine ⟨k, a, mono _ _ b, ?_⟩
    by_cases hji : j = i
    · subst hji
      rw [self]
      refine ⟨fun h' => by simp at h', fun _ k' hk' => ?_⟩
      simp only [Option.some.injEq] at hk'
      rw [← hk']; exact c hr
    · rw [other j hji]; exact ⟨c, d⟩
  · exact h.frames_ok
  · exact h.frames_inc

theorem feedInv_worker {n : ℕ} {s : FeedState} (h : FeedInv n s) : FeedInv n (workerStep n s) := by
  unfold workerStep
  rcases hpc : s.pc with ⟨i, c⟩ | _ | i | _ | _
  · dsimp only
    obtain ⟨h1, h2, h3⟩ := h.count i c hpc
    by_cases hi : i < n
    · rw [if_pos hi]
      refine ⟨h.recv, h.tr, ?_, ?_, ?_, ?_, h.frames_ok, h.frames_inc⟩
      · intro a b hab
        simp only [WorkerPc.count.injEq] at hab
        obtain ⟨rfl, rfl⟩ := hab
        refine ⟨hi, ?_, ?_⟩
        · split_ifs <;> omega
        · split_ifs with ht
          · intro e j hj
            by_cases hji : j = i
            · subst hji; exact ht
            · exact h3 (by omega) j (by omega)
          · intro e; omega
      · intro a ha; simp at ha
      · intro a ha; simp at ha
      · intro a _ ha; simp [swapped] at ha
    · rw [if_neg hi]
      by_cases hc : n = 0 ∨ n ≠ c
      · rw [if_pos hc]
        refine ⟨h.recv, h.tr, ?_, ?_, ?_, ?_, h.frames_ok, h.frames_inc⟩
        · intro a b hab; simp at hab
        · intro a ha; simp at ha
        · intro a ha; simp at ha
        · intro a _ ha; simp [swapped] at ha
      · rw [if_neg hc]
        push Not at hc
        refine ⟨h.recv, h.tr, ?_, ?_, ?_, ?_, h.frames_ok, h.frames_inc⟩
        · intro a b hab; simp at hab
        · intro a ha
          simp only [WorkerPc.swap.injEq] at ha
          subst ha
          exact ⟨Nat.zero_le _, fun j _ hj => h3 (by omega) j (by omega)⟩
        · intro a _; omega
        · intro a _ ha; simp [swapped] at ha
  · dsimp only
    refine ⟨h.recv, h.tr, ?_, ?_, ?_, ?_, h.frames_ok, h.frames_inc⟩
    · intro a b hab
      simp only [WorkerPc.count.injEq] at hab
      obtain ⟨rfl, rfl⟩ := hab
      exact ⟨Nat.zero_le _, le_refl _, fun _ j hj => absurd hj (Nat.not_lt_zero j)⟩
    · intro a ha; simp at ha
    · intro a ha; simp at ha
    · intro a _ ha; simp [swapped] at ha
  · dsimp only
    obtain ⟨h1, h2⟩ := h.swap i hpc
    have hpos := h.pos i (Or.inl hpc)
    by_cases hi : i < n
    · rw [if_pos hi]
      set s' : FeedState := { cams := Function.update s.cams i { s.cams i with transformed_cloud := none, transformed := false }, pc := .swap (i + 1), frame := Function.update s.frame i (s.cams i).transformed_cloud, log := s.log, frames := s.frames } with hs'
      have other : ∀ j, j ≠ i → s'.cams j = s.cams j := fun j hj => by rw [hs']; simp [hj]
      have self : s'.cams i = { s.cams i with transformed_cloud := none, transformed := false } := by rw [hs']; simp
      have mono : ∀ j k, FreshCloud s j k → FreshCloud s' j k := fun j k hk => hk
      constructor
      · intro j hj hrj
        by_cases hji : j = i
        · subst hji; rw [self] at hrj ⊢; exact h.recv j hj hrj
        · rw [other j hji] at hrj ⊢; exact h.recv j hj hrj
      · intro j hj ht
        by_cases hji : j = i
        · subst hji; rw [self] at ht; simp at ht
        · rw [other j hji] at ht ⊢; exact h.tr j hj ht
      · intro a b hab; simp [hs'] at hab
      · intro a ha
        simp only [hs', WorkerPc.swap.injEq] at ha
        subst ha
        refine ⟨hi, fun j hj hj2 => ?_⟩
        rw [other j (by omega)]; exact h2 j (by omega) hj2
      · intro _ _; exact hpos
      · intro j hj hs
        have hs : j < i + 1 := hs
        by_cases hji : j = i
        · subst hji
          obtain ⟨k, a, b, c⟩ := h.tr j hj (h2 j (le_refl j) hj)
          rw [self]
          refine ⟨k, by rw [hs']; simpa using a, mono _ _ b, c, fun h' => by simp at h'⟩
        · obtain ⟨k, a, b, c⟩ := h.taken j hj (by rw [hpc]; show j < i; omega)
          rw [other j hji]
          exact ⟨k, by rw [hs']; simpa [hji] using a, mono _ _ b, c⟩
      · exact h.frames_ok
      · exact h.frames_inc
    · rw [if_neg hi]
      refine ⟨h.recv, h.tr, ?_, ?_, ?_, ?_, h.frames_ok, h.frames_inc⟩
      · intro a b hab; simp at hab
      · intro a ha; simp at ha
      · intro _ _; exact hpos
      · intro j hj _
        exact h.taken j hj (by rw [hpc]; show j < i; omega)
  · dsimp only
    have hpos := h.pos 0 (Or.inr hpc)
    have htk : ∀ j < n, _ := fun j hj => h.taken j hj (by rw [hpc]; trivial)
    have fresh : ∀ j < n, ∀ k, FreshCloud s j k → (∀ k', s.frame j = some k' → k' < k) →
        FreshCloud { s with frames := s.frames ++ [s.frame], pc := .count 0 0 } j k := by
      intro j hj k hk hlt
      refine ⟨hk.1, fun f hf k' hk' => ?_⟩
      rcases List.mem_append.1 hf with hf | hf
      · exact hk.2 f hf k' hk'
      · rw [List.mem_singleton] at hf; subst hf; exact hlt k' hk'
    constructor
    · intro j hj hr
      obtain ⟨k, a, b, c, d⟩ := htk j hj
      refine fresh j hj _ (h.recv j hj hr) (fun k' hk' => ?_)
      rw [a, Option.some.injEq] at hk'; subst hk'; exact c hr
    · intro j hj ht
      obtain ⟨k, a, b, c, d⟩ := htk j hj
      obtain ⟨k2, a2, b2, c2⟩ := h.tr j hj ht
      refine ⟨k2, a2, fresh j hj _ b2 (fun k' hk' => ?_), c2⟩
      rw [a, Option.some.injEq] at hk'; subst hk'; exact d ht k2 a2
    · intro a b hab
      simp only [WorkerPc.count.injEq] at hab
      obtain ⟨rfl, rfl⟩ := hab
      exact ⟨Nat.zero_le _, le_refl _, fun _ j hj => absurd hj (Nat.not_lt_zero j)⟩
    · intro a ha; simp at ha
    · intro a ha; simp at ha
    · intro a _ ha; simp [swapped] at ha
    · intro f hf
      rcases List.mem_append.1 hf with hf | hf
      · exact h.frames_ok f hf
      · rw [List.mem_singleton] at hf; subst hf
        refine ⟨hpos, fun j hj => ?_⟩
        obtain ⟨k, a, b, -⟩ := htk j hj
        exact ⟨k, a, b.1⟩
    · rw [List.pairwise_append]
      refine ⟨h.frames_inc, by simp, fun f hf g hg j hj k k' hk hk' => ?_⟩
      rw [List.mem_singleton] at hg; subst hg
      obtain ⟨k2, a, b, -⟩ := htk j hj
      rw [a, Option.some.injEq] at hk'; subst hk'
      exact b.2 f hf k hk
  · exact h

theorem feedInv_reach {n : ℕ} {s : FeedState} (h : FeedReach n s) : FeedInv n s := by
  induction h with
  | init => exact feedInv_init n
  | step _ hs ih =>
    cases hs with
    | arrive i stamp hi => exact feedInv_arrive ih i stamp
    | transform i hi hr => exact feedInv_transform ih i hi hr
    | worker => exact feedInv_worker ih
    | exit hpc =>
      refine ⟨ih.recv, ih.tr, ?_, ?_, ?_, ?_, ih.frames_ok, ih.frames_inc⟩
      · intro a b hab; simp at hab
      · intro a ha; simp at ha
      · intro a ha; simp at ha
      · intro a _ ha; simp [swapped] at ha

/-- **C40.** Under every interleaving, the planner is run only with a cloud from every camera – there
is at least one camera, no cloud is missing, each comes from the camera it is filed under –, and from
one planning cycle to any later one every camera's cloud is a newer one: no cloud is used twice. -/
theorem C40_complete_frames (n : ℕ) (s : FeedState) (h : FeedReach n s) :
    (∀ f ∈ s.frames, 0 < n ∧ ∀ i < n, ∃ k, f i = some k ∧ s.log[k]? = some i) ∧
    (s.frames.Pairwise fun f g => ∀ i < n, ∀ k k', f i = some k → g i = some k' → k < k') :=
  ⟨(feedInv_reach h).frames_ok, (feedInv_reach h).frames_inc⟩

/-- **C40, progress.** With a transformed cloud of every camera the worker does plan: from the start of
its counting loop it reaches the planner call by its own steps, hands over exactly these clouds and
marks all of them consumed. -/
theorem C40_plans_when_complete (n : ℕ) (hn : 0 < n) (s : FeedState) (hpc : s.pc = .count 0 0)
    (hall : ∀ i < n, (s.cams i).transformed = true) :
    let r := (workerStep n)^[2 * n + 3] s
    r.frames = s.frames ++ [r.frame] ∧ (∀ i < n, r.frame i = (s.cams i).transformed_cloud) ∧
    ∀ i < n, (r.cams i).transformed = false := by
  have hcount : ∀ k, k ≤ n → (workerStep n)^[k] s = { s with pc := .count k k } := by
    intro k
    induction k with
    | zero => intro _; show s = _; rw [← hpc]
    | succ k ih =>
      intro hk
      rw [Function.iterate_succ_apply', ih (by omega)]
      unfold workerStep
      dsimp only
      rw [if_pos (by omega), if_pos (hall k (by omega))]
  have h1 : (workerStep n)^[n + 1] s = { s with pc := .swap 0 } := by
    rw [Function.iterate_succ_apply', hcount n le_rfl]
    unfold workerStep
    dsimp only
    rw [if_neg (lt_irrefl n), if_neg (by push Not; exact ⟨by omega, rfl⟩)]
  have hswap : ∀ k, k ≤ n → (workerStep n)^[k] { s with pc := .swap 0 } =
      { s with pc := .swap k
               frame := fun i => if i < k then (s.cams i).transformed_cloud else s.frame i
               cams := fun i => if i < k then { s.cams i with transformed_cloud := none, transformed := false } else s.cams i } := by
    intro k
    induction k with
    | zero => intro _; simp
    | succ k ih =>
      intro hk
      rw [Function.iterate_succ_apply', ih (by omega)]
      unfold workerStep
      dsimp only
      rw [if_pos (by omega)]
      simp only [lt_irrefl, if_false]
      congr 1
      · funext i
        by_cases hi : i = k
        · subst hi; simp
        · simp only [Function.update_of_ne hi]
          by_cases h2 : i < k
          · rw [if_pos h2, if_pos (by omega)]
          · rw [if_neg h2, if_neg (by omega)]
      · funext i
        by_cases hi : i = k
        · subst hi; simp
        · simp only [Function.update_of_ne hi]
          by_cases h2 : i < k
          · rw [if_pos h2, if_pos (by omega)]
          · rw [if_neg h2, if_neg (by omega)]
  have h2 : (workerStep n)^[n + 2] { s with pc := .swap 0 } =
      { s with pc := .count 0 0
               frame := fun i => if i < n then (s.cams i).transformed_cloud else s.frame i
               cams := fun i => if i < n then { s.cams i with transformed_cloud := none, transformed := false } else s.cams i
               frames := s.frames ++ [fun i => if i < n then (s.cams i).transformed_cloud else s.frame i] } := by
    rw [Function.iterate_succ_apply', Function.iterate_succ_apply', hswap n le_rfl]
    have e : ∀ a : FeedState, a.pc = .swap n → workerStep n a = { a with pc := .run } := by
      intro a ha; unfold workerStep; rw [ha]; dsimp only; rw [if_neg (lt_irrefl n)]
    have e2 : ∀ a : FeedState, a.pc = .run → workerStep n a = { a with frames := a.frames ++ [a.frame], pc := .count 0 0 } := by
      intro a ha; unfold workerStep; rw [ha]
    rw [e2 _ (by rw [e _ rfl]), e _ rfl]
  have h3 : (workerStep n)^[2 * n + 3] s = (workerStep n)^[n + 2] ((workerStep n)^[n + 1] s) := by
    rw [← Function.iterate_add_apply]; congr 1; omega
  dsimp only
  rw [h3, h1, h2]
  refine ⟨rfl, fun i hi => ?_, fun i hi => ?_⟩
  · simp [hi]
  · simp [hi]

/-- **C40, arrival and transformation.** A cloud that arrives replaces the one waiting to be
transformed, except that it is dropped if one is waiting that is less than 0.3 s older; transforming
makes the waiting cloud the camera's transformed one.  Neither touches another camera. -/
theorem C40_latest_cloud (s : FeedState) (i : ℕ) (stamp : ℚ) :
    (∀ j ≠ i, (cloudArrives s i stamp).cams j = s.cams j ∧ (cloudTransformed s i).cams j = s.cams j) ∧
    (((s.cams i).received = false ∨ 3 / 10 ≤ stamp - (s.cams i).stamp) →
      ((cloudArrives s i stamp).cams i).received = true ∧
      ((cloudArrives s i stamp).cams i).untransformed = s.log.length ∧
      ((cloudArrives s i stamp).cams i).stamp = stamp) ∧
    ((s.cams i).received = true → stamp - (s.cams i).stamp < 3 / 10 →
      (cloudArrives s i stamp).cams i = s.cams i) ∧
    (cloudArrives s i stamp).log = s.log ++ [i] ∧
    ((cloudTransformed s i).cams i).transformed_cloud = some (s.cams i).untransformed ∧
    ((cloudTransformed s i).cams i).transformed = true ∧ ((cloudTransformed s i).cams i).received = false := by
  unfold cloudArrives cloudTransformed
  dsimp only
  refine ⟨fun j hj => ⟨?_, by simp [hj]⟩, fun h => ?_, fun h1 h2 => ?_, ?_, by simp, by simp, by simp⟩
  · split_ifs
    · rfl
    · simp [hj]
  · rw [if_neg]
    · simp
    · rintro ⟨h1, h2⟩
      rcases h with h | h
      · rw [h] at h1; simp at h1
      · linarith
  · rw [if_pos ⟨h1, h2⟩]
  · split_ifs <;> rfl

/-- Without cameras the planner never runs. -/
theorem C40_no_cameras (s : FeedState) (h : FeedReach 0 s) : s.frames = [] := by
  have := (C40_complete_frames 0 s h).1
  rcases hf : s.frames with _ | ⟨f, fs⟩
  · rfl
  · exact absurd (this f (by rw [hf]; simp)).1 (lt_irrefl 0)

/-- A run with two cameras: two clouds of camera 0 (the second within 0.3 s: dropped), one of camera 1, and
a planning cycle. -/
example : ∃ s, FeedReach 2 s ∧ (s.frames.map fun f => [f 0, f 1]) = [[some 0, some 2]] := by
  have r0 : FeedReach 2 feedInit := .init
  have r1 := r0.step (.arrive _ 0 10 (by omega))
  have r2 := r1.step (.arrive _ 0 (101 / 10) (by omega))
  have r3 := r2.step (.arrive _ 1 (101 / 10) (by omega))
  have r4 := r3.step (.transform _ 0 (by omega) (by decide +kernel))
  have r5 := r4.step (.transform _ 1 (by omega) (by decide +kernel))
  have r6 := (((((((r5.step (.worker _)).step (.worker _)).step (.worker _)).step (.worker _)).step
    (.worker _)).step (.worker _)).step (.worker _))
  exact ⟨_, r6, by decide +kernel⟩

/-! ## C41: setpoints and degradation -/

/-- **C41.** A round of the command loop sends a setpoint exactly if the planner's data is young enough
(or the node has just started), the status is then `ACTIVE`, and otherwise nothing at all is sent. -/
theorem C41_sent_iff (s : CmdState) (waited age up now : ℝ) (i : WgIn) :
    let r := cmdLoop s waited age up now i
    ((age ≤ 1 / 2 ∨ up ≤ 5) → r.status = .ACTIVE ∧ ∃ m, r.sent = s.sent ++ [m]) ∧
    (¬ (age ≤ 1 / 2 ∨ up ≤ 5) → r.status ≠ .ACTIVE ∧ r.sent = s.sent ∧ r.gen = s.gen ∧
      (r.status = .FLIGHT_TERMINATION ↔ 15 < age ∧ 15 < up)) := by
  unfold cmdLoop
  dsimp only
  generalize (if waited > 15 then MavState.FLIGHT_TERMINATION else s.status) = st
  obtain ⟨c1, c2, c3, -⟩ := C21_check age up ⟨st, false⟩
  constructor
  · intro h
    rw [c3 h rfl]
    exact ⟨rfl, _, rfl⟩
  · intro h
    push Not at h
    by_cases ht : 15 < age ∧ 15 < up
    · rw [c1 ht.1 ht.2]
      rw [if_neg (by simp)]; exact ⟨by simp, rfl, rfl, by simp [ht]⟩
    · rw [c2 ht h.1 h.2]
      rw [if_neg (by decide)]; exact ⟨by simp, rfl, rfl, by simp only [reduceCtorEq, false_iff]; exact ht⟩

/-- **C41 (finding).** Setpoints are never computed with a loiter request: the round that sends one uses
`stay = false`.  So hovering on missing data, which the watchdog requests (`hover`), is never
commanded. -/
theorem C41_never_sent_with_hover (s : CmdState) (waited age up now : ℝ) (i : WgIn) :
    (cmdLoop s waited age up now i).gen = s.gen ∨
    (cmdLoop s waited age up now i).gen = wgCycle s.gen { i with stay := false } now := by
  unfold cmdLoop
  dsimp only
  generalize (if waited > 15 then MavState.FLIGHT_TERMINATION else s.status) = st
  obtain ⟨c1, c2, c3, -⟩ := C21_check age up ⟨st, false⟩
  by_cases h : age ≤ 1 / 2 ∨ up ≤ 5
  · rw [c3 h rfl]; exact Or.inr rfl
  · push Not at h
    by_cases ht : 15 < age ∧ 15 < up
    · rw [c1 ht.1 ht.2]; exact Or.inl rfl
    · rw [c2 ht h.1 h.2]; exact Or.inl rfl

/-- **C41 (finding), all runs.** Once the waypoint generator has left its initial `LOITER` mode, it is
never in it again, whatever happens to the data: after any run of the command loop the mode is
`LOITER` only if no setpoint has been sent since it was. -/
theorem C41_loiter_never_commanded (s : CmdState) (rs : List CmdRound) (h : s.gen.1 ≠ .LOITER) :
    (cmdRun s rs).gen.1 ≠ .LOITER := by
  induction rs generalizing s with
  | nil => exact h
  | cons r rs ih =>
    unfold cmdRun
    apply ih
    rcases C41_never_sent_with_hover { s with gen := (s.gen.1, r.f s.gen.2) } r.waited r.age r.up r.now r.input with e | e
    · rw [e]; exact h
    · rw [e, C37_next_state]
      dsimp only
      generalize s.gen.1 = m at h
      cases m
      · simp; split_ifs <;> simp
      · simp; split_ifs <;> simp
      · exact absurd rfl h
      · simp; split_ifs <;> simp

/-- **C41 (finding).** Flight termination is not final: a round with young data sends setpoints again,
also if the wait for a position had set the termination status in the same round. -/
theorem C41_termination_revoked (s : CmdState) (waited up now : ℝ) (i : WgIn)
    (_h : s.status = .FLIGHT_TERMINATION) :
    (cmdLoop s waited 0 up now i).status = .ACTIVE :=
  ((C41_sent_iff s waited 0 up now i).1 (Or.inl (by norm_num))).1

/-- **C41, what is sent.** The setpoint of a round is the waypoint generator's output (position, yaw,
velocity) of a cycle run in that round with that round's vehicle data, at that round's time. -/
theorem C41_sent_content (s : CmdState) (waited age up now : ℝ) (i : WgIn) (h : age ≤ 1 / 2 ∨ up ≤ 5) :
    let r := cmdLoop s waited age up now i
    let o := (wgCycle s.gen { i with stay := false } now).2
    r.gen = wgCycle s.gen { i with stay := false } now ∧
    r.sent = s.sent ++ [(o.out_position, o.setpoint_yaw, o.out_linear_velocity)] := by
  unfold cmdLoop
  dsimp only
  generalize (if waited > 15 then MavState.FLIGHT_TERMINATION else s.status) = st
  obtain ⟨-, -, c3, -⟩ := C21_check age up ⟨st, false⟩
  rw [c3 h rfl]
  exact ⟨rfl, rfl⟩

/-- **C41: the flight mode.** Each of the seven mode names is recognised as what it says, and every
other name gives `none`. -/
theorem C41_nav_state :
    navStateOf "AUTO.MISSION" = .mission ∧ navStateOf "AUTO.TAKEOFF" = .auto_takeoff ∧
    navStateOf "AUTO.LAND" = .auto_land ∧ navStateOf "AUTO.RTL" = .auto_rtl ∧
    navStateOf "AUTO.RTGS" = .auto_rtgs ∧ navStateOf "AUTO.LOITER" = .auto_loiter ∧
    navStateOf "OFFBOARD" = .offboard ∧
    ∀ mode, navStateOf mode = .none ↔ mode ∉ ["AUTO.MISSION", "AUTO.TAKEOFF", "AUTO.LAND", "AUTO.RTL", "AUTO.RTGS",
      "AUTO.LOITER", "OFFBOARD"] := by
  refine ⟨by decide, by decide, by decide, by decide, by decide, by decide, by decide, fun mode => ?_⟩
  unfold navStateOf
  simp only [List.mem_cons, List.not_mem_nil, or_false, not_or]
  split_ifs <;> simp_all

/-! ## C67: goals -/

section goals
variable {K : Type*} [Field K] [LinearOrder K]

/-- **C67, pending goals.** Unless an autopilot message with the special command replaces the goal
without being a new mission item, the planner's goal is the node's current goal whenever no goal is
pending – in every history of clicked goals, goal topics, autopilot messages and planning cycles. -/
theorem C67_planner_goal_current (s : GoalState K) (evs : List (GoalEvent K))
    (h : s.new_goal = false → s.planner_goal = s.goal)
    (hok : ∀ m, GoalEvent.fcu m ∈ evs → ¬ (m.valid1 = true ∧ m.command1 = 65535)) :
    (evs.foldl goalStep s).new_goal = false → (evs.foldl goalStep s).planner_goal = (evs.foldl goalStep s).goal := by
  induction evs generalizing s with
  | nil => exact h
  | cons e evs ih =>
    rw [List.foldl_cons]
    refine ih _ ?_ (fun m hm => hok m (by simp [hm]))
    cases e with
    | clicked p => intro hn; simp [goalStep, clickedGoal] at hn
    | topic ms =>
      unfold goalStep updateGoal
      dsimp only
      split
      · intro hn; simp at hn
      · exact h
    | fcu m =>
      have := hok m (by simp)
      unfold goalStep fcuInputGoal fcuSecond fcuFirst
      dsimp only
      by_cases h1 : m.valid0 = true ∧ fcuUpdate s m = true
      · rw [if_pos h1]
        by_cases h2 : m.valid1 = true
        · rw [if_pos h2, if_neg (fun h3 => this ⟨h2, h3⟩)]
          intro hn; simp at hn
        · rw [if_neg h2]; intro hn; simp at hn
      · rw [if_neg h1]
        by_cases h2 : m.valid1 = true
        · rw [if_pos h2, if_neg (fun h3 => this ⟨h2, h3⟩)]
          exact h
        · rw [if_neg h2]; exact h
    | handOver =>
      unfold goalStep handOverGoal
      dsimp only
      by_cases hn : s.new_goal = true
      · rw [if_pos hn]; intro _; rfl
      · rw [if_neg hn]; exact h

/-- **C67, hand-over.** Each planning cycle leaves no goal pending and gives the planner the latest
goal, together with the one before it. -/
theorem C67_hand_over (s : GoalState K) :
    (handOverGoal s).new_goal = false ∧ (handOverGoal s).goal = s.goal ∧
    (s.new_goal = true → (handOverGoal s).planner_goal = s.goal ∧ (handOverGoal s).planner_prev = s.prev_goal) := by
  unfold handOverGoal
  by_cases h : s.new_goal = true
  · rw [if_pos h]; exact ⟨rfl, rfl, fun _ => ⟨rfl, rfl⟩⟩
  · rw [if_neg h]; exact ⟨by simpa using h, rfl, fun h' => absurd h' h⟩

/-- **C67 (finding).** Otherwise the two can diverge for good: after a goal clicked on the map has been
handed over, an autopilot message that repeats the known mission item with the special command moves
the node's goal (used for the waypoints) back to the mission item, but not the planner's. -/
theorem C67_goals_diverge_witness : ∃ (s : GoalState ℚ) (m : TrajectoryMsg ℚ),
    s.new_goal = false ∧ s.planner_goal = s.goal ∧
    (handOverGoal (fcuInputGoal s m)).planner_goal ≠ (handOverGoal (fcuInputGoal s m)).goal := by
  refine ⟨⟨⟨some 1, some 2, some 3⟩, ⟨some 0, some 0, some 0⟩, false, ⟨none, none, none⟩, false, false,
    ⟨9, 9, 3⟩, false, ⟨some 1, some 2, some 3⟩, ⟨some 0, some 0, some 0⟩⟩,
    ⟨true, true, ⟨9, 9, 3⟩, ⟨none, none, none⟩, 0, ⟨9, 9, 3⟩, 65535⟩, rfl, rfl, ?_⟩
  rw [ne_eq, V3.ext_iff]
  decide +kernel

/-- **C67, mission items.** A valid autopilot message whose second point is a new mission item sets the
goal to its first point (unless the special command selects the second) and records whether it is a
landing or a take-off; the goal in force until then becomes the previous goal. -/
theorem C67_new_item (s : GoalState K) (m : TrajectoryMsg K) (hv : m.valid0 = true)
    (hd : (m.position2.x - s.mission_item.x) ^ 2 + (m.position2.y - s.mission_item.y) ^ 2 +
      (m.position2.z - s.mission_item.z) ^ 2 > 1 / 10000) :
    (fcuInputGoal s m).new_goal = true ∧ (fcuInputGoal s m).prev_goal = s.goal ∧
    (fcuInputGoal s m).goal = (if m.valid1 = true ∧ m.command1 = 65535 then m.position2.some' else m.position1.some') ∧
    ((fcuInputGoal s m).is_land = true ↔ m.command0 = 21) ∧
    ((fcuInputGoal s m).is_takeoff = true ↔ m.command0 = 22) := by
  have hc : m.valid0 = true ∧ fcuUpdate s m = true :=
    ⟨hv, by unfold fcuUpdate; simp only [decide_eq_true_eq]; exact Or.inl hd⟩
  have hf : fcuFirst s m = { s with new_goal := true, prev_goal := s.goal, goal := m.position1.some', desired_velocity := m.velocity1, is_land := decide (m.command0 = 21), is_takeoff := decide (m.command0 = 22) } := by
    unfold fcuFirst
    exact if_pos hc
  unfold fcuInputGoal
  rw [hf]
  unfold fcuSecond
  by_cases h2 : m.valid1 = true
  · rw [if_pos h2]
    by_cases h3 : m.command1 = 65535
    · rw [if_pos h3, if_pos ⟨h2, h3⟩]; simp
    · rw [if_neg h3, if_neg (fun h => h3 h.2)]; simp
  · rw [if_neg h2, if_neg (fun h => h2 h.1)]; simp

/-- **C67, known items.** A message whose second point is the known mission item (within 1 cm) changes
nothing while there is a goal, unless it carries the special command: then its second point becomes
the goal, with no velocity. -/
theorem C67_known_item (s : GoalState K) (m : TrajectoryMsg K)
    (hd : (m.position2.x - s.mission_item.x) ^ 2 + (m.position2.y - s.mission_item.y) ^ 2 +
      (m.position2.z - s.mission_item.z) ^ 2 ≤ 1 / 10000) (hx : s.goal.x ≠ none) (hy : s.goal.y ≠ none) :
    (fcuInputGoal s m).new_goal = s.new_goal ∧ (fcuInputGoal s m).prev_goal = s.prev_goal ∧
    (fcuInputGoal s m).is_land = s.is_land ∧ (fcuInputGoal s m).is_takeoff = s.is_takeoff ∧
    (fcuInputGoal s m).mission_item = (if m.valid1 then m.position2 else s.mission_item) ∧
    (fcuInputGoal s m).goal = (if m.valid1 = true ∧ m.command1 = 65535 then m.position2.some' else s.goal) ∧
    (fcuInputGoal s m).desired_velocity =
      (if m.valid1 = true ∧ m.command1 = 65535 then ⟨none, none, none⟩ else s.desired_velocity) := by
  have hc : ¬ (m.valid0 = true ∧ fcuUpdate s m = true) := by
    rintro ⟨-, h⟩
    unfold fcuUpdate at h
    simp only [decide_eq_true_eq] at h
    rcases h with h | h | h
    · exact absurd hd (not_le.2 h)
    · exact hx h
    · exact hy h
  have hf : fcuFirst s m = s := by unfold fcuFirst; exact if_neg hc
  unfold fcuInputGoal
  rw [hf]
  unfold fcuSecond
  by_cases h2 : m.valid1 = true
  · rw [if_pos h2]
    by_cases h3 : m.command1 = 65535
    · rw [if_pos h3]; simp [h2, h3]
    · rw [if_neg h3]; simp [h2, h3]
  · rw [if_neg h2]; simp [h2]

/-- **C67, first goal.** Without a goal any valid message sets one; its velocity is the one wanted by
the flight controller. -/
theorem C67_first_goal (s : GoalState K) (m : TrajectoryMsg K) (hv : m.valid0 = true)
    (hx : s.goal.x = none ∨ s.goal.y = none) (hs : ¬ (m.valid1 = true ∧ m.command1 = 65535)) :
    (fcuInputGoal s m).new_goal = true ∧ (fcuInputGoal s m).goal = m.position1.some' ∧
    (fcuInputGoal s m).desired_velocity = m.velocity1 := by
  have hc : m.valid0 = true ∧ fcuUpdate s m = true :=
    ⟨hv, by unfold fcuUpdate; simp only [decide_eq_true_eq]; exact Or.inr hx⟩
  have hf : fcuFirst s m = { s with new_goal := true, prev_goal := s.goal, goal := m.position1.some', desired_velocity := m.velocity1, is_land := decide (m.command0 = 21), is_takeoff := decide (m.command0 = 22) } := by
    unfold fcuFirst
    exact if_pos hc
  unfold fcuInputGoal
  rw [hf]
  unfold fcuSecond
  by_cases h2 : m.valid1 = true
  · rw [if_pos h2, if_neg (fun h3 => hs ⟨h2, h3⟩)]; simp
  · rw [if_neg h2]; simp

/-- **C67, clicked goals and goal topic.** A click sets the horizontal goal, keeps the planner's goal
altitude and remembers the goal before; the goal topic sets the first marker's position if it is
accepted and has one, and changes nothing otherwise. -/
theorem C67_clicked_and_topic (s : GoalState K) (p : V3 K) (ms : List (V3 K)) :
    (goalStep s (.clicked p)).goal = ⟨some p.x, some p.y, s.planner_goal.z⟩ ∧
    (goalStep s (.clicked p)).prev_goal = s.goal ∧ (goalStep s (.clicked p)).new_goal = true ∧
    (goalStep s (.clicked p)).planner_goal = s.planner_goal ∧
    (s.accept_topic = true → (goalStep s (.topic (p :: ms))).goal = p.some' ∧
      (goalStep s (.topic (p :: ms))).prev_goal = s.goal ∧ (goalStep s (.topic (p :: ms))).new_goal = true) ∧
    (s.accept_topic = false → goalStep s (.topic (p :: ms)) = s) ∧
    goalStep s (.topic []) = s := by
  refine ⟨rfl, rfl, rfl, rfl, fun h => ?_, fun h => ?_, ?_⟩
  · simp only [goalStep, updateGoal, h]; trivial
  · simp only [goalStep, updateGoal, h]
  · simp only [goalStep, updateGoal]; cases s.accept_topic <;> rfl

end goals
end Avoidance
