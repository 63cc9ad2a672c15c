import Mathlib.Tactic.Linarith
import Mathlib.Tactic.NormNum
import Mathlib.Tactic.Push
import Mathlib.Data.Rat.Defs
import Mathlib.Logic.Relation
import Mathlib.Tactic.IntervalCases
import Verif.SlpNode

/-!
# Properties of the safe landing planner node (C71)
-/

namespace Avoidance
namespace SlpNode

set_option linter.unusedSectionVars false

variable {K : Type*} [Field K] [LinearOrder K] [IsStrictOrderedRing K]

/-! ## The status messages -/

/-- The clock does not run backwards: the readings of one command loop come after the node's start and the end of
the last one, in the order the program takes them. -/
structure Ordered (s : StatusState K) (c : Cycle K) : Prop where
  start : s.start_time ≤ c.query
  last : s.last_algo ≤ c.query
  polls : ∀ t ∈ c.polls, t ≤ c.now
  now : c.query ≤ c.now
  done : c.now ≤ c.done

theorem waitOnce_last (T : Timeouts K) (q : K) (ts : List K) (s : StatusState K) :
    (ts.foldl (waitOnce T q) s).last_algo = s.last_algo ∧ (ts.foldl (waitOnce T q) s).start_time = s.start_time := by
  induction ts generalizing s with
  | nil => exact ⟨rfl, rfl⟩
  | cons t ts ih =>
    rw [List.foldl_cons]
    obtain ⟨h1, h2⟩ := ih (waitOnce T q s t)
    rw [h1, h2]
    unfold waitOnce publishStatus
    by_cases h : t - q > T.termination
    · rw [if_pos h]; exact ⟨rfl, rfl⟩
    · rw [if_neg h]; exact ⟨rfl, rfl⟩

theorem waitOnce_state (T : Timeouts K) (q : K) (ts : List K) (s : StatusState K) :
    (ts.foldl (waitOnce T q) s).state = if ∃ t ∈ ts, t - q > T.termination then .termination else s.state := by
  induction ts generalizing s with
  | nil => simp
  | cons t ts ih =>
    rw [List.foldl_cons, ih]
    by_cases h : t - q > T.termination
    · have : ∃ u ∈ t :: ts, u - q > T.termination := ⟨t, by simp, h⟩
      rw [if_pos this]
      by_cases h2 : ∃ u ∈ ts, u - q > T.termination
      · rw [if_pos h2]
      · rw [if_neg h2]; unfold waitOnce; rw [if_pos h]; rfl
    · have e : (∃ u ∈ t :: ts, u - q > T.termination) ↔ ∃ u ∈ ts, u - q > T.termination := by
        constructor
        · rintro ⟨u, hu, h'⟩
          rcases List.mem_cons.mp hu with rfl | hu
          · exact absurd h' h
          · exact ⟨u, hu, h'⟩
        · rintro ⟨u, hu, h'⟩; exact ⟨u, List.mem_cons_of_mem _ hu, h'⟩
      have e2 : waitOnce T q s t = s := by unfold waitOnce; rw [if_neg h]
      simp only [e, e2]

theorem waitOnce_published (T : Timeouts K) (q : K) (ts : List K) (s : StatusState K) :
    (ts.foldl (waitOnce T q) s).published =
      s.published ++ (ts.filter (fun t => decide (t - q > T.termination))).map (fun t => (t, Status.termination)) := by
  induction ts generalizing s with
  | nil => simp
  | cons t ts ih =>
    rw [List.foldl_cons, ih]
    by_cases h : t - q > T.termination
    · unfold waitOnce publishStatus
      rw [if_pos h, List.filter_cons_of_pos (by simpa using h)]
      simp
    · have e2 : waitOnce T q s t = s := by unfold waitOnce; rw [if_neg h]
      rw [e2, List.filter_cons_of_neg (by simpa using h)]

theorem waitOnce_sent (T : Timeouts K) (q : K) (ts : List K) (s : StatusState K) :
    (ts.foldl (waitOnce T q) s).status_sent =
      ((ts.filter (fun t => decide (t - q > T.termination))).getLast?).getD s.status_sent := by
  induction ts generalizing s with
  | nil => simp
  | cons t ts ih =>
    rw [List.foldl_cons, ih]
    by_cases h : t - q > T.termination
    · rw [List.filter_cons_of_pos (by simpa using h), List.getLast?_cons]
      unfold waitOnce publishStatus
      rw [if_pos h]; rfl
    · have e2 : waitOnce T q s t = s := by unfold waitOnce; rw [if_neg h]
      rw [e2, List.filter_cons_of_neg (by simpa using h)]

theorem checkFailsafe_fields (T : Timeouts K) (s : StatusState K) (a b : K) :
    (checkFailsafe T s a b).last_algo = s.last_algo ∧ (checkFailsafe T s a b).start_time = s.start_time ∧
      (checkFailsafe T s a b).published = s.published ∧ (checkFailsafe T s a b).status_sent = s.status_sent := by
  unfold checkFailsafe
  split_ifs <;> exact ⟨rfl, rfl, rfl, rfl⟩

/-- The state at the end of a command loop. -/
theorem cycle_state (T : Timeouts K) (s : StatusState K) (c : Cycle K) :
    (cycle T s c).state =
      if c.now - s.last_algo > T.termination ∧ c.now - s.start_time > T.termination then .termination
      else if c.now - s.last_algo > T.critical ∧ c.now - s.start_time > T.critical then .critical
      else if ∃ t ∈ c.polls, t - c.query > T.termination then .termination else .active := by
  have h := waitOnce_last T c.query c.polls { s with state := .active }
  have hs := waitOnce_state T c.query c.polls { s with state := .active }
  have : (cycle T s c).state = (checkFailsafe T (c.polls.foldl (waitOnce T c.query) { s with state := .active })
      (c.now - s.last_algo) (c.now - s.start_time)).state := by
    unfold cycle
    simp only [h.1, h.2]
    split_ifs <;> rfl
  rw [this]
  unfold checkFailsafe
  split_ifs with h1 h2 h3 <;> simp_all

/-- **C71.** With a clock that does not run backwards, the state the node reports at the end of a command loop is
exactly this: termination when both the last finished loop and the node's start are longer ago than the termination
time, otherwise critical when both are longer ago than the critical time, otherwise active — whatever was reported
before. -/
theorem C71_status_exact (T : Timeouts K) (s : StatusState K) (c : Cycle K) (h : Ordered s c) :
    ((cycle T s c).state = .termination ↔
      T.termination < c.now - s.last_algo ∧ T.termination < c.now - s.start_time) ∧
    ((cycle T s c).state = .critical ↔
      ¬ (T.termination < c.now - s.last_algo ∧ T.termination < c.now - s.start_time) ∧
        T.critical < c.now - s.last_algo ∧ T.critical < c.now - s.start_time) ∧
    ((cycle T s c).state = .active ↔
      (c.now - s.last_algo ≤ T.termination ∨ c.now - s.start_time ≤ T.termination) ∧
        (c.now - s.last_algo ≤ T.critical ∨ c.now - s.start_time ≤ T.critical)) := by
  rw [cycle_state]
  have key : (∃ t ∈ c.polls, t - c.query > T.termination) →
      c.now - s.last_algo > T.termination ∧ c.now - s.start_time > T.termination := by
    rintro ⟨t, ht, h1⟩
    have := h.polls t ht
    have := h.last
    have := h.start
    constructor <;> linarith
  by_cases h1 : c.now - s.last_algo > T.termination ∧ c.now - s.start_time > T.termination
  · rw [if_pos h1]
    refine ⟨⟨fun _ => h1, fun _ => rfl⟩, ⟨fun e => (nomatch e), fun e => absurd h1 e.1⟩, ⟨fun e => (nomatch e), ?_⟩⟩
    rintro ⟨e | e, _⟩
    · exact absurd h1.1 (not_lt.mpr e)
    · exact absurd h1.2 (not_lt.mpr e)
  · rw [if_neg h1]
    have h3 : ¬ ∃ t ∈ c.polls, t - c.query > T.termination := fun e => h1 (key e)
    have h1' : c.now - s.last_algo ≤ T.termination ∨ c.now - s.start_time ≤ T.termination := by
      by_contra hn; push Not at hn; exact h1 hn
    by_cases h2 : c.now - s.last_algo > T.critical ∧ c.now - s.start_time > T.critical
    · rw [if_pos h2]
      refine ⟨⟨fun e => (nomatch e), fun e => absurd e h1⟩, ⟨fun _ => ⟨h1, h2⟩, fun _ => rfl⟩, ⟨fun e => (nomatch e), ?_⟩⟩
      rintro ⟨_, e | e⟩
      · exact absurd h2.1 (not_lt.mpr e)
      · exact absurd h2.2 (not_lt.mpr e)
    · rw [if_neg h2, if_neg h3]
      have h2' : c.now - s.last_algo ≤ T.critical ∨ c.now - s.start_time ≤ T.critical := by
        by_contra hn; push Not at hn; exact h2 hn
      exact ⟨⟨fun e => (nomatch e), fun e => absurd e h1⟩, ⟨fun e => (nomatch e), fun e => absurd e.2 h2⟩,
        ⟨fun _ => ⟨h1', h2'⟩, fun _ => rfl⟩⟩

/-- Non-vacuity: a node started at 100 s whose last loop ended at 200 s; a loop that waits for its cloud until
201 s reports critical. -/
example : Ordered (⟨100, 200, 200, .active, []⟩ : StatusState ℚ) ⟨2001/10, [2005/10, 2009/10], 201, 2011/10⟩ ∧
    (cycle (⟨1/2, 15⟩ : Timeouts ℚ) ⟨100, 200, 200, .active, []⟩ ⟨2001/10, [2005/10, 2009/10], 201, 2011/10⟩).state
      = .critical := by
  refine ⟨⟨by norm_num, by norm_num, ?_, by norm_num, by norm_num⟩, by decide +kernel⟩
  intro t ht
  simp only [List.mem_cons, List.not_mem_nil, or_false] at ht
  rcases ht with rfl | rfl <;> norm_num

/-- **C71.** Exactly these messages are published by a command loop: one termination message for every look at the
clock, while it waits, that comes later than the termination time after the loop's beginning; and at its end one
message with the final state, unless a message was sent less than 0.2 s before. -/
theorem C71_messages_exact (T : Timeouts K) (s : StatusState K) (c : Cycle K) :
    (cycle T s c).published =
      s.published ++ (c.polls.filter (fun t => decide (T.termination < t - c.query))).map
          (fun t => (t, Status.termination)) ++
        (if 2 / 10 < c.now - ((c.polls.filter (fun t => decide (T.termination < t - c.query))).getLast?).getD
            s.status_sent then [(c.done, (cycle T s c).state)] else []) := by
  have hp := waitOnce_published T c.query c.polls { s with state := .active }
  have hs := waitOnce_sent T c.query c.polls { s with state := .active }
  simp only [gt_iff_lt] at hp hs
  have hst : (cycle T s c).state = (checkFailsafe T (c.polls.foldl (waitOnce T c.query) { s with state := .active })
      (c.now - (c.polls.foldl (waitOnce T c.query) { s with state := .active }).last_algo)
      (c.now - (c.polls.foldl (waitOnce T c.query) { s with state := .active }).start_time)).state := by
    unfold cycle
    simp only
    split_ifs <;> rfl
  rw [hst]
  unfold cycle
  dsimp only
  generalize c.polls.foldl (waitOnce T c.query) { s with state := .active } = s2 at hp hs ⊢
  obtain ⟨_, _, h3, h4⟩ := checkFailsafe_fields T s2 (c.now - s2.last_algo) (c.now - s2.start_time)
  generalize checkFailsafe T s2 (c.now - s2.last_algo) (c.now - s2.start_time) = s3 at h3 h4 ⊢
  simp only [gt_iff_lt, h4, hs]
  split_ifs with h
  · simp only [publishStatus, h3, hp, List.append_assoc]
  · simp only [h3, hp, List.append_nil]

/-- **C71, finding.** While the node waits for a cloud it is silent for the whole termination time: a loop that waits
no longer than that publishes nothing before the cloud has come and the planner has run. -/
theorem C71_silent_while_waiting (T : Timeouts K) (s : StatusState K) (c : Cycle K)
    (hw : ∀ t ∈ c.polls, t - c.query ≤ T.termination) :
    ∀ m ∈ (cycle T s c).published, m ∈ s.published ∨ m = (c.done, (cycle T s c).state) := by
  rw [C71_messages_exact]
  have : c.polls.filter (fun t => decide (T.termination < t - c.query)) = [] := by
    rw [List.filter_eq_nil_iff]
    intro t ht
    simpa using hw t ht
  rw [this]
  intro m hm
  simp only [List.map_nil, List.append_nil, List.mem_append] at hm
  rcases hm with hm | hm
  · exact Or.inl hm
  · right
    split_ifs at hm with h
    · simpa using hm
    · cases hm

/-- The finding in numbers: with the default times, a cloud that comes 14 s late is followed by one message; in those
14 s nothing is published, although critical is due after half a second. -/
example : (cycle (⟨1/2, 15⟩ : Timeouts ℚ) ⟨100, 200, 200, .active, [(200, .active)]⟩
      ⟨2001/10, [204, 208, 212], 214, 2141/10⟩).published
    = [(200, .active), (2141/10, .critical)] := by decide +kernel

/-- **C71, finding.** Termination is not final: a loop that finds its cloud in time reports active again,
whatever was reported before. -/
theorem C71_termination_revoked (T : Timeouts K) (s : StatusState K) (c : Cycle K) (h : Ordered s c)
    (ht : c.now - s.last_algo ≤ T.termination) (hc : c.now - s.last_algo ≤ T.critical) :
    (cycle T s c).state = .active :=
  (C71_status_exact T s c h).2.2.mpr ⟨Or.inl ht, Or.inl hc⟩

/-- Non-vacuity: two loops; in the first the termination state is published three times, after the second the state
is active. -/
example : (cycles (⟨1/2, 15⟩ : Timeouts ℚ) ⟨100, 200, 200, .active, []⟩
      [⟨2001/10, [210, 216, 217, 218], 218, 2181/10⟩, ⟨2182/10, [], 2183/10, 2184/10⟩]).published
    = [(216, .termination), (217, .termination), (218, .termination), (2184/10, .active)] := by
  decide +kernel

/-- The node takes up its next command loop within `d` of the end of the previous one and has its cloud by then, and
the planner needs at most `p`; the clock does not run backwards. -/
def Steady (d p : K) : K → List (Cycle K) → Prop
  | _, [] => True
  | last, c :: cs => last ≤ c.query ∧ c.query ≤ c.now ∧ (∀ t ∈ c.polls, c.query ≤ t ∧ t ≤ c.now) ∧ c.polls.IsChain (· ≤ ·) ∧
      c.now - last ≤ d ∧ c.now ≤ c.done ∧ c.done - c.now ≤ p ∧ Steady d p c.done cs

/-- Consecutive numbers of the list, which begins after `a`, are at most `g` apart. -/
def GapsAtMost (g : K) : K → List K → Prop
  | _, [] => True
  | a, b :: l => b - a ≤ g ∧ GapsAtMost g b l

theorem gaps_append (g a : K) (l m : List K) :
    GapsAtMost g a (l ++ m) ↔ GapsAtMost g a l ∧ GapsAtMost g (l.getLast?.getD a) m := by
  induction l generalizing a with
  | nil => simp [GapsAtMost]
  | cons b l ih =>
    rw [List.cons_append, GapsAtMost, GapsAtMost, ih, List.getLast?_cons]
    simp [and_assoc]

theorem gaps_within (g a hi : K) (l : List K) (hl : ∀ t ∈ l, t ≤ hi) (ha : hi - a ≤ g) (hlo : ∀ t ∈ l, a ≤ t) (hc : l.IsChain (· ≤ ·)) :
    GapsAtMost g a l := by
  induction l generalizing a with
  | nil => trivial
  | cons b l ih =>
    have hb := hl b (by simp)
    have hab := hlo b (by simp)
    refine ⟨by linarith, ih b (fun t ht => hl t (by simp [ht])) (by linarith) ?_ (List.IsChain.of_cons hc)⟩
    have hp := (List.isChain_iff_pairwise).mp hc
    intro t ht
    exact (List.pairwise_cons.mp hp).1 t ht

/-- One loop of a steady history. -/
theorem cycle_gap (T : Timeouts K) (s : StatusState K) (c : Cycle K) (d p : K)
    (hinv : s.last_algo - s.status_sent ≤ 2 / 10 + p) (hse : s.status_sent ≤ s.last_algo)
    (h1 : s.last_algo ≤ c.query) (h3 : ∀ t ∈ c.polls, c.query ≤ t ∧ t ≤ c.now) (h0 : c.polls.IsChain (· ≤ ·))
    (h4 : c.now - s.last_algo ≤ d) (h5 : c.now ≤ c.done) (h6 : c.done - c.now ≤ p) (h7 : c.query ≤ c.now) :
    ∃ new, (cycle T s c).published = s.published ++ new ∧
      GapsAtMost (2 / 10 + d + 2 * p) s.status_sent (new.map Prod.fst) ∧
      (cycle T s c).status_sent = (new.map Prod.fst).getLast?.getD s.status_sent ∧
      (cycle T s c).last_algo = c.done ∧
      c.done - (cycle T s c).status_sent ≤ 2 / 10 + p ∧ (cycle T s c).status_sent ≤ c.done := by
  set l := c.polls.filter (fun t => decide (T.termination < t - c.query)) with hl
  have hmem : ∀ t ∈ l, c.query ≤ t ∧ t ≤ c.now := fun t ht => h3 t (List.mem_of_mem_filter ht)
  have hchain : l.IsChain (· ≤ ·) := by
    rw [List.isChain_iff_pairwise] at h0 ⊢
    exact h0.filter _
  have hp0 : 0 ≤ p := by linarith
  have hsent : (cycle T s c).status_sent =
      if 2 / 10 < c.now - l.getLast?.getD s.status_sent then c.done else l.getLast?.getD s.status_sent := by
    have hs := waitOnce_sent T c.query c.polls { s with state := .active }
    simp only [gt_iff_lt] at hs
    rw [← hl] at hs
    unfold cycle
    dsimp only
    generalize c.polls.foldl (waitOnce T c.query) { s with state := .active } = s2 at hs ⊢
    obtain ⟨_, _, _, e4⟩ := checkFailsafe_fields T s2 (c.now - s2.last_algo) (c.now - s2.start_time)
    generalize checkFailsafe T s2 (c.now - s2.last_algo) (c.now - s2.start_time) = s3 at e4 ⊢
    simp only [gt_iff_lt, e4, hs]
    split_ifs
    · rfl
    · rfl
  have hlast : (cycle T s c).last_algo = c.done := by
    unfold cycle
    simp only
    split_ifs <;> rfl
  have hg1 : GapsAtMost (2 / 10 + d + 2 * p) s.status_sent l := by
    refine gaps_within _ _ c.now l (fun t ht => (hmem t ht).2) (by linarith) (fun t ht => ?_) hchain
    have := (hmem t ht).1
    linarith
  have hle : l.getLast?.getD s.status_sent ≤ c.now ∧ c.now - l.getLast?.getD s.status_sent ≤ 2 / 10 + d + p := by
    cases hgl : l.getLast? with
    | none => simp only [Option.getD_none]; constructor <;> linarith
    | some t =>
      have ht := hmem t (List.mem_of_getLast? hgl)
      simp only [Option.getD_some]
      constructor
      · exact ht.2
      · linarith [ht.1]
  refine ⟨l.map (fun t => (t, Status.termination)) ++ (if 2 / 10 < c.now - l.getLast?.getD s.status_sent then
      [(c.done, (cycle T s c).state)] else []), ?_, ?_, ?_, hlast, ?_, ?_⟩
  · rw [C71_messages_exact T s c, List.append_assoc]
  · rw [List.map_append, List.map_map]
    have : (Prod.fst ∘ fun t : K => (t, Status.termination)) = id := rfl
    rw [this, List.map_id, gaps_append]
    refine ⟨hg1, ?_⟩
    split_ifs with h
    · simp only [List.map_cons, List.map_nil, GapsAtMost, and_true]
      linarith [hle.2]
    · trivial
  · rw [hsent, List.map_append, List.map_map]
    have : (Prod.fst ∘ fun t : K => (t, Status.termination)) = id := rfl
    rw [this, List.map_id]
    split_ifs with h
    · simp
    · simp
  · rw [hsent]
    split_ifs with h
    · linarith
    · linarith
  · rw [hsent]
    split_ifs with h
    · exact le_refl _
    · linarith [hle.1]

/-- **C71.** The heartbeat: in every history of command loops in which each finds its cloud within `d` of the end of the
last one and the planner takes at most `p`, the status messages are at most `0.2 + d + 2 p` apart, from whatever
message was sent last within `0.2 + p` of the last loop's end. -/
theorem C71_heartbeat (T : Timeouts K) (d p : K) (cs : List (Cycle K)) (s : StatusState K)
    (hinv : s.last_algo - s.status_sent ≤ 2 / 10 + p) (hse : s.status_sent ≤ s.last_algo)
    (hs : Steady d p s.last_algo cs) :
    ∃ new, (cycles T s cs).published = s.published ++ new ∧
      GapsAtMost (2 / 10 + d + 2 * p) s.status_sent (new.map Prod.fst) ∧
      (cycles T s cs).last_algo - (cycles T s cs).status_sent ≤ 2 / 10 + p := by
  induction cs generalizing s with
  | nil => exact ⟨[], by simp [cycles], trivial, hinv⟩
  | cons c cs ih =>
    obtain ⟨h1, h2, h3, h0, h4, h5, h6, h7⟩ := hs
    obtain ⟨new1, e1, g1, e2, e3, i1, i2⟩ := cycle_gap T s c d p hinv hse h1 h3 h0 h4 h5 h6 h2
    obtain ⟨new2, f1, g2, f3⟩ := ih (cycle T s c) (by rw [e3]; exact i1) (by rw [e3]; exact i2) (by rw [e3]; exact h7)
    have ec : cycles T s (c :: cs) = cycles T (cycle T s c) cs := rfl
    refine ⟨new1 ++ new2, ?_, ?_, ?_⟩
    · rw [ec, f1, e1, List.append_assoc]
    · rw [List.map_append, gaps_append]
      exact ⟨g1, by rw [← e2]; exact g2⟩
    · rw [ec]; exact f3

/-- Non-vacuity: a steady history of two loops. -/
example : Steady (1/2 : ℚ) (1/10) 200 [⟨2001/10, [2002/10], 2003/10, 2004/10⟩, ⟨2005/10, [], 2006/10, 2007/10⟩] := by
  simp only [Steady]
  norm_num

/-! ## The hand-over of clouds -/

/-- The worker holds a cloud made from message `m` that the planner does not have yet. -/
def WPc.carries : WPc → ℕ → Prop
  | .copied m, n => m = n
  | .transformed m, n => m = n
  | .guarded m, n => m = n
  | .flagged m, n => m = n
  | _, _ => False

/-- The worker is past its test of the flag and before setting it. -/
def WPc.busy : WPc → Bool
  | .ask => true
  | .copied _ => true
  | .transformed _ => true
  | .guarded _ => true
  | _ => false

/-- The worker has the guard. -/
def WPc.holds : WPc → Bool
  | .guarded _ => true
  | .flagged _ => true
  | .moved => true
  | _ => false

/-- The command loop has the guard. -/
def CPc.holds : CPc → Bool
  | .guarded => true
  | .ran => true
  | .cleared => true
  | _ => false

/-- The flag is set but its cloud is not there yet. -/
def WPc.isFlagged : WPc → Bool
  | .flagged _ => true
  | _ => false

/-- Who holds the guard, and what the flag is there. -/
structure CtlInv (s : Feed) : Prop where
  lw : s.lock = some .worker ↔ s.wpc.holds = true
  lc : s.lock = some .loop ↔ s.cpc.holds = true
  busy : s.wpc.busy = true → s.flag = false
  fl : s.wpc.isFlagged = true → s.flag = true
  mv : s.wpc = .moved → s.flag = true
  cl : s.cpc = .leaving ∨ s.cpc = .guarded ∨ s.cpc = .ran → s.flag = true
  cc : s.cpc = .cleared → s.flag = false

theorem ctl_init : CtlInv feedInit := by
  constructor <;> simp [feedInit, WPc.holds, CPc.holds, WPc.busy, WPc.isFlagged]

set_option maxHeartbeats 1000000 in
theorem ctl_step {s t : Feed} (h : CtlInv s) (st : Step s t) : CtlInv t := by
  obtain ⟨newest, wpc, cpc, flag, lock, cloud, made, runs⟩ := s
  obtain ⟨lw, lc, busy, fl, mv, cl, cc⟩ := h
  cases st <;> dsimp only at * <;> constructor <;>
    simp_all [WPc.holds, CPc.holds, WPc.busy, WPc.isFlagged] <;> cases wpc <;> cases cpc <;> simp_all

/-- A cloud is ready and not yet used. -/
def Feed.pending (s : Feed) : Prop := s.flag = true ∧ s.wpc.isFlagged = false ∧ s.cpc ≠ .ran

instance (s : Feed) : Decidable s.pending := by unfold Feed.pending; infer_instance

/-- What the planner has used. -/
structure DataInv (s : Feed) : Prop where
  made : s.made = s.runs.length + (if s.pending then 1 else 0)
  cloud : s.cloud.2 = s.made
  num : ∀ (i : ℕ) (h : i < s.runs.length), (s.runs[i]).2 = s.runs.length - i
  msg : s.cloud.1 ≤ s.newest
  car : ∀ m, s.wpc.carries m → s.cloud.1 ≤ m ∧ m ≤ s.newest ∧ 0 < m
  pos : 0 < s.made → 0 < s.cloud.1
  sorted : s.runs.Pairwise (fun a b => b.1 ≤ a.1)
  last : ∀ r ∈ s.runs, 0 < r.1 ∧ r.1 ≤ s.cloud.1

theorem data_init : DataInv feedInit := by
  constructor <;> simp [feedInit, WPc.isFlagged, WPc.carries, Feed.pending]

/-- A step that touches neither messages nor clouds. -/
theorem data_frame {s t : Feed} (h : DataInv s) (e1 : t.made = s.made) (e2 : t.runs = s.runs) (e3 : t.cloud = s.cloud)
    (e4 : s.newest ≤ t.newest) (e5 : t.pending ↔ s.pending) (e6 : ∀ m, t.wpc.carries m → s.wpc.carries m) : DataInv t := by
  obtain ⟨made, cloud, num, msg, car, pos, sorted, last⟩ := h
  refine ⟨?_, ?_, ?_, ?_, ?_, ?_, ?_, ?_⟩
  · rw [e1, e2, made]
    simp only [e5]
  · rw [e3, e1, cloud]
  · rw [e2]; exact num
  · rw [e3]; omega
  · intro m hm
    have := car m (e6 m hm)
    rw [e3]
    omega
  · rw [e1, e3]; exact pos
  · rw [e2]; exact sorted
  · rw [e2, e3]; exact last

set_option maxHeartbeats 1000000 in
theorem data_step {s t : Feed} (hc : CtlInv s) (h : DataInv s) (st : Step s t) : DataInv t := by
  have hct := ctl_step hc st
  obtain ⟨lw, lc, busy, fl, mv, cl, cc⟩ := hc
  cases st
  case copy h1 h2 =>
    obtain ⟨made, cloud, num, msg, car, pos, sorted, last⟩ := h
    refine ⟨?_, cloud, num, msg, ?_, pos, sorted, last⟩
    · simp_all [Feed.pending, WPc.isFlagged]
    · intro m hm
      have hm' : s.newest = m := hm
      subst hm'
      exact ⟨msg, le_refl _, h2⟩
  case move m h1 =>
    obtain ⟨made, cloud, num, msg, car, pos, sorted, last⟩ := h
    have hcar := car m (by rw [h1]; rfl)
    have hfl : s.flag = true := fl (by rw [h1]; rfl)
    have hran : s.cpc ≠ .ran := by
      intro hr
      have e1 := lc.mpr (by rw [hr]; rfl)
      have e2 := lw.mpr (by rw [h1]; rfl)
      rw [e1] at e2
      cases e2
    have hnp : ¬ s.pending := by
      rintro ⟨_, h2, _⟩
      rw [h1] at h2
      cases h2
    refine ⟨?_, rfl, num, hcar.2.1, ?_, fun _ => hcar.2.2, sorted, ?_⟩
    · rw [if_pos ⟨hfl, rfl, hran⟩]
      rw [if_neg hnp] at made
      simpa using made
    · intro n hn
      cases hn
    · intro r hr
      have := last r hr
      exact ⟨this.1, by dsimp only; omega⟩
  case run h1 =>
    obtain ⟨made, cloud, num, msg, car, pos, sorted, last⟩ := h
    have hfl : s.flag = true := cl (Or.inr (Or.inl h1))
    have hnf : s.wpc.isFlagged = false := by
      cases hw : s.wpc <;> try rfl
      have e1 := lc.mpr (by rw [h1]; rfl)
      have e2 := lw.mpr (by rw [hw]; rfl)
      rw [e1] at e2
      cases e2
    have hp : s.pending := ⟨hfl, hnf, by rw [h1]; decide⟩
    rw [if_pos hp] at made
    refine ⟨?_, cloud, ?_, msg, car, pos, ?_, ?_⟩
    · have : ¬ ({ s with cpc := .ran, runs := s.cloud :: s.runs } : Feed).pending := fun hq => hq.2.2 rfl
      rw [if_neg this]
      simpa using made
    · intro i hi
      cases i with
      | zero =>
        simp only [List.getElem_cons_zero, List.length_cons]
        omega
      | succ i =>
        simp only [List.length_cons, Nat.add_lt_add_iff_right] at hi
        simp only [List.getElem_cons_succ, List.length_cons]
        rw [num i hi]
        omega
    · exact List.pairwise_cons.mpr ⟨fun r hr => (last r hr).2, sorted⟩
    · intro r hr
      rcases List.mem_cons.mp hr with rfl | hr
      · exact ⟨pos (by omega), le_refl _⟩
      · exact last r hr
  all_goals
    refine data_frame h rfl rfl rfl (by simp) ?_ ?_
    · simp_all [Feed.pending, WPc.isFlagged, WPc.busy]
    · intro m hm
      simp_all [WPc.carries]

/-- Both hold in every state the program can reach. -/
theorem reach_inv {s : Feed} (h : Reach s) : CtlInv s ∧ DataInv s := by
  induction h with
  | init => exact ⟨ctl_init, data_init⟩
  | step _ st ih => exact ⟨ctl_step ih.1 st, data_step ih.1 ih.2 st⟩

/-- **C71.** Every run of the planner uses a new transformation, and no transformed cloud is lost: whatever the
interleaving of the threads, the first run uses the first transformed cloud, the second the second, and so on
(`runs` lists the newest first). -/
theorem C71_each_run_new_transformation {s : Feed} (h : Reach s) (i : ℕ) (hi : i < s.runs.length) :
    (s.runs[i]).2 = s.runs.length - i ∧ s.runs.length ≤ s.made ∧ s.made ≤ s.runs.length + 1 := by
  have := (reach_inv h).2
  refine ⟨this.num i hi, ?_, ?_⟩
  · have := this.made; split_ifs at this <;> omega
  · have := this.made; split_ifs at this <;> omega

/-- **C71.** The planner never runs on the empty cloud it starts with nor goes back in time: each run's cloud was made
from a received message not older than that of the run before, and not newer than the newest received. -/
theorem C71_clouds_in_order {s : Feed} (h : Reach s) :
    (∀ r ∈ s.runs, 0 < r.1 ∧ r.1 ≤ s.newest) ∧ s.runs.Pairwise (fun newer older => older.1 ≤ newer.1) := by
  have := (reach_inv h).2
  exact ⟨fun r hr => ⟨(this.last r hr).1, (this.last r hr).2.trans this.msg⟩, this.sorted⟩

/-- **C71.** While the planner runs, the worker does not touch its cloud. -/
theorem C71_run_undisturbed {s t : Feed} (h : Reach s) (hr : s.cpc = .guarded ∨ s.cpc = .ran) (st : Step s t) :
    t.cloud = s.cloud := by
  have hc := (reach_inv h).1
  cases st <;> try rfl
  case move m h1 =>
    have e1 := hc.lc.mpr (by rcases hr with hr | hr <;> rw [hr] <;> rfl)
    have e2 := hc.lw.mpr (by rw [h1]; rfl)
    rw [e1] at e2
    cases e2

/-! ### The same message twice -/

/-- The situation in which a message is used again and again: the planner has finished its `n`-th run before the worker,
which delivered that run's cloud, has looked at the flag again. -/
def again (n : ℕ) : Feed where
  newest := 1
  wpc := .test
  cpc := .idle
  flag := false
  lock := none
  cloud := (1, n)
  made := n
  runs := ((List.range n).map fun (i : ℕ) => (1, i + 1)).reverse

/-- A step during which no message is taken from the queue. -/
def Deaf (s t : Feed) : Prop := Step s t ∧ s.cpc ≠ .pumping ∧ t.cpc ≠ .pumping

theorem deaf_trans {s t u : Feed} (h : Relation.ReflTransGen Deaf s t) (st : Step t u) (h1 : t.cpc ≠ .pumping)
    (h2 : u.cpc ≠ .pumping) : Relation.ReflTransGen Deaf s u := h.tail ⟨st, h1, h2⟩

theorem again_next (n : ℕ) : Relation.ReflTransGen Deaf (again n) (again (n + 1)) := by
  have h := Relation.ReflTransGen.refl (r := Deaf) (a := again n)
  have h := deaf_trans h (Step.testLoop rfl rfl) (fun h => nomatch h) (fun h => nomatch h)
  have h := deaf_trans h (Step.copy rfl Nat.one_pos) (fun h => nomatch h) (fun h => nomatch h)
  have h := deaf_trans h (Step.transform rfl) (fun h => nomatch h) (fun h => nomatch h)
  have h := deaf_trans h (Step.guard rfl rfl) (fun h => nomatch h) (fun h => nomatch h)
  have h := deaf_trans h (Step.setFlag rfl) (fun h => nomatch h) (fun h => nomatch h)
  have h := deaf_trans h (Step.move rfl) (fun h => nomatch h) (fun h => nomatch h)
  have h := deaf_trans h (Step.unguard rfl) (fun h => nomatch h) (fun h => nomatch h)
  have h := deaf_trans h (Step.fire rfl) (fun h => nomatch h) (fun h => nomatch h)
  have h := deaf_trans h (Step.leave rfl rfl) (fun h => nomatch h) (fun h => nomatch h)
  have h := deaf_trans h (Step.loopGuard rfl rfl) (fun h => nomatch h) (fun h => nomatch h)
  have h := deaf_trans h (Step.run rfl) (fun h => nomatch h) (fun h => nomatch h)
  have h := deaf_trans h (Step.clear rfl) (fun h => nomatch h) (fun h => nomatch h)
  have h := deaf_trans h (Step.loopUnguard rfl) (fun h => nomatch h) (fun h => nomatch h)
  have e : (again (n + 1)).runs = (1, n + 1) :: (again n).runs := by
    simp [again, List.range_succ]
  have e2 : again (n + 1) = { again n with cloud := (1, n + 1), made := n + 1, runs := (1, n + 1) :: (again n).runs } := by
    rw [← e]; rfl
  rw [e2]
  exact h

/-- The state is reached with one message and one run. -/
theorem again_one : Reach (again 1) := by
  have h := Reach.init
  have h := Reach.step h (Step.wait rfl)
  have h := Reach.step h (Step.fire rfl)
  have h := Reach.step h (Step.pump rfl rfl)
  have h := Reach.step h (Step.receiveWake rfl rfl)
  have h := Reach.step h (Step.testLoop rfl rfl)
  have h := Reach.step h (Step.copy rfl (by decide))
  have h := Reach.step h (Step.transform rfl)
  have h := Reach.step h (Step.guard rfl rfl)
  have h := Reach.step h (Step.setFlag rfl)
  have h := Reach.step h (Step.move rfl)
  have h := Reach.step h (Step.unguard rfl)
  have h := Reach.step h (Step.pumped rfl)
  have h := Reach.step h (Step.leave rfl rfl)
  have h := Reach.step h (Step.loopGuard rfl rfl)
  have h := Reach.step h (Step.run rfl)
  have h := Reach.step h (Step.clear rfl)
  have h := Reach.step h (Step.loopUnguard rfl)
  exact h

/-- **C71, finding.** One message can feed the planner for ever: there is a reachable state from which the planner can
run any number of times on the same message while no message — cloud, pose or parameter — is taken from the queue in
between (the worker looks at the flag after the planner has already reset it, transforms the same message again, and
the command loop, finding the flag set, never calls the subscribers). -/
theorem C71_same_message_for_ever_violated :
    ∃ s, Reach s ∧ s.newest = 1 ∧ ∀ n, ∃ t, Relation.ReflTransGen Deaf s t ∧ t.runs.length = n + 1 ∧ ∀ r ∈ t.runs, r.1 = 1 := by
  refine ⟨again 1, again_one, rfl, fun n => ⟨again (n + 1), ?_, ?_, ?_⟩⟩
  · induction n with
    | zero => exact .refl
    | succ n ih => exact ih.trans (again_next (n + 1))
  · simp [again]
  · intro r hr
    simp only [again, List.mem_reverse, List.mem_map] at hr
    obtain ⟨i, _, rfl⟩ := hr
    rfl

/-- A schedule in which the worker looks at the flag before the planner, which it has just fed, is done, and in which
`wait` returns only when notified. -/
inductive PromptReach : Feed → Prop where
  | init : PromptReach feedInit
  | step {s t} : PromptReach s → Step s t → (s.cpc = .ran → t.cpc = .cleared → s.wpc = .top ∨ s.wpc = .waiting) →
      (s.wpc = .waiting → t.wpc = .test → t.newest = s.newest + 1) → PromptReach t

theorem PromptReach.reach {s : Feed} (h : PromptReach s) : Reach s := by
  induction h with
  | init => exact .init
  | step _ st _ _ ih => exact .step ih st

/-- What a prompt worker keeps up. -/
structure PromptInv (s : Feed) : Prop where
  look : (s.wpc = .test ∨ s.wpc = .ask) → s.flag = false → ∀ r ∈ s.runs, r.1 < s.newest
  car : ∀ m, s.wpc.carries m → ∀ r ∈ s.runs, r.1 < m
  pend : s.pending → ∀ r ∈ s.runs, r.1 < s.cloud.1
  sorted : s.runs.Pairwise (fun a b => b.1 < a.1)

theorem prompt_inv {s : Feed} (h : PromptReach s) : PromptInv s := by
  induction h with
  | init => constructor <;> simp [feedInit, WPc.carries]
  | @step s t hr st hp hw ih =>
    obtain ⟨hc, hd⟩ := reach_inv hr.reach
    obtain ⟨look, car, pend, sorted⟩ := ih
    have hrun : ∀ r ∈ s.runs, r.1 ≤ s.newest := fun r hr' => (hd.last r hr').2.trans hd.msg
    cases st
    case wait h1 =>
      exact ⟨by simp, by simp [WPc.carries], fun hq => pend ⟨hq.1, by rw [h1]; rfl, hq.2.2⟩, sorted⟩
    case spurious h1 =>
      have := hw h1 rfl
      simp at this
    case receiveWake h1 h2 =>
      refine ⟨fun _ _ r hr' => ?_, by simp [WPc.carries], fun hq => pend ⟨hq.1, by rw [h2]; rfl, hq.2.2⟩, sorted⟩
      have := hrun r hr'
      dsimp only
      omega
    case receive h1 h2 =>
      refine ⟨fun hq hf r hr' => ?_, car, pend, sorted⟩
      have := look hq hf r hr'
      dsimp only
      omega
    case testLoop h1 h2 =>
      refine ⟨fun _ _ => look (Or.inl h1) h2, by simp [WPc.carries], fun hq => ?_, sorted⟩
      have := hq.1
      dsimp only at this
      rw [h2] at this
      cases this
    case testLeave h1 h2 =>
      exact ⟨by simp, by simp [WPc.carries], fun hq => pend ⟨hq.1, by rw [h1]; rfl, hq.2.2⟩, sorted⟩
    case copy h1 h2 =>
      have hf := hc.busy (by rw [h1]; rfl)
      refine ⟨by simp, ?_, fun hq => ?_, sorted⟩
      · intro m hm
        have hm' : s.newest = m := hm
        subst hm'
        exact look (Or.inr h1) hf
      · have := hq.1
        dsimp only at this
        rw [hf] at this
        cases this
    case unavailable h1 =>
      have hf := hc.busy (by rw [h1]; rfl)
      refine ⟨fun _ _ => look (Or.inr h1) hf, by simp [WPc.carries], fun hq => ?_, sorted⟩
      have := hq.1
      dsimp only at this
      rw [hf] at this
      cases this
    case transform m h1 =>
      refine ⟨by simp, fun n hn => car n (by rw [h1]; exact hn), fun hq => pend ⟨hq.1, by rw [h1]; rfl, hq.2.2⟩, sorted⟩
    case throws m h1 =>
      refine ⟨fun _ _ r hr' => ?_, by simp [WPc.carries], fun hq => pend ⟨hq.1, by rw [h1]; rfl, hq.2.2⟩, sorted⟩
      have e1 := car m (by rw [h1]; rfl) r hr'
      have e2 := (hd.car m (by rw [h1]; rfl)).2.1
      dsimp only
      omega
    case guard m h1 h2 =>
      refine ⟨by simp, fun n hn => car n (by rw [h1]; exact hn), fun hq => pend ⟨hq.1, by rw [h1]; rfl, hq.2.2⟩, sorted⟩
    case setFlag m h1 =>
      refine ⟨by simp, fun n hn => car n (by rw [h1]; exact hn), fun hq => ?_, sorted⟩
      have := hq.2.1
      cases this
    case move m h1 =>
      exact ⟨by simp, by simp [WPc.carries], fun _ => car m (by rw [h1]; rfl), sorted⟩
    case unguard h1 =>
      have hf := hc.mv h1
      refine ⟨fun _ hq => ?_, by simp [WPc.carries], fun hq => pend ⟨hq.1, by rw [h1]; rfl, hq.2.2⟩, sorted⟩
      dsimp only at hq
      rw [hf] at hq
      cases hq
    case run h1 =>
      have hfl : s.flag = true := hc.cl (Or.inr (Or.inl h1))
      have hnf : s.wpc.isFlagged = false := by
        cases hw' : s.wpc <;> try rfl
        have e1 := hc.lc.mpr (by rw [h1]; rfl)
        have e2 := hc.lw.mpr (by rw [hw']; rfl)
        rw [e1] at e2
        cases e2
      have hpd : s.pending := ⟨hfl, hnf, by rw [h1]; decide⟩
      refine ⟨fun _ hq => ?_, fun m hm => ?_, fun hq => absurd rfl hq.2.2, List.pairwise_cons.mpr ⟨pend hpd, sorted⟩⟩
      · dsimp only at hq
        rw [hfl] at hq
        cases hq
      · dsimp only at hm
        have hb := hc.busy
        rw [hfl] at hb
        cases hw' : s.wpc <;> rw [hw'] at hm hb hnf <;> simp [WPc.carries, WPc.busy, WPc.isFlagged] at hm hb hnf
    case clear h1 =>
      have := hp h1 rfl
      refine ⟨fun hq => ?_, car, fun hq => ?_, sorted⟩
      · dsimp only at hq
        rcases this with h | h <;> rw [h] at hq <;> simp at hq
      · have := hq.1
        cases this
    case fire h1 => exact ⟨look, car, fun hq => pend ⟨hq.1, hq.2.1, by rw [h1]; decide⟩, sorted⟩
    case pump h1 h2 => exact ⟨look, car, fun hq => pend ⟨hq.1, hq.2.1, by rw [h1]; decide⟩, sorted⟩
    case pumped h1 => exact ⟨look, car, fun hq => pend ⟨hq.1, hq.2.1, by rw [h1]; decide⟩, sorted⟩
    case leave h1 h2 => exact ⟨look, car, fun hq => pend ⟨hq.1, hq.2.1, by rw [h1]; decide⟩, sorted⟩
    case loopGuard h1 h2 => exact ⟨look, car, fun hq => pend ⟨hq.1, hq.2.1, by rw [h1]; decide⟩, sorted⟩
    case loopUnguard h1 => exact ⟨look, car, fun hq => pend ⟨hq.1, hq.2.1, by rw [h1]; decide⟩, sorted⟩

/-- **C71 (part).** With a prompt worker each run of the planner uses a message no run has used before, in the order of
arrival.  Missing: schedules in which the worker is overtaken by the planner, and spurious wake-ups, for which it is
false (`C71_same_message_for_ever_violated`). -/
theorem C71_each_run_new_message_partial {s : Feed} (h : PromptReach s) :
    s.runs.Pairwise (fun newer older => older.1 < newer.1) := (prompt_inv h).sorted

/-- Non-vacuity of the prompt schedules: one message, one run. -/
example : ∃ s, PromptReach s ∧ s.runs = [(1, 1)] ∧ s.wpc = .top := by
  have h := PromptReach.init
  have h := h.step (Step.wait rfl) (fun h => nomatch h) (fun h => nomatch h)
  have h := h.step (Step.fire rfl) (fun h => nomatch h) (fun _ h => nomatch h)
  have h := h.step (Step.pump rfl rfl) (fun h => nomatch h) (fun _ h => nomatch h)
  have h := h.step (Step.receiveWake rfl rfl) (fun h => nomatch h) (fun _ _ => rfl)
  have h := h.step (Step.testLoop rfl rfl) (fun h => nomatch h) (fun h => nomatch h)
  have h := h.step (Step.copy rfl (by decide)) (fun h => nomatch h) (fun h => nomatch h)
  have h := h.step (Step.transform rfl) (fun h => nomatch h) (fun h => nomatch h)
  have h := h.step (Step.guard rfl rfl) (fun h => nomatch h) (fun h => nomatch h)
  have h := h.step (Step.setFlag rfl) (fun h => nomatch h) (fun h => nomatch h)
  have h := h.step (Step.move rfl) (fun h => nomatch h) (fun h => nomatch h)
  have h := h.step (Step.unguard rfl) (fun h => nomatch h) (fun h => nomatch h)
  have h := h.step (Step.testLeave rfl rfl) (fun h => nomatch h) (fun h => nomatch h)
  have h := h.step (Step.pumped rfl) (fun h => nomatch h) (fun h => nomatch h)
  have h := h.step (Step.leave rfl rfl) (fun h => nomatch h) (fun h => nomatch h)
  have h := h.step (Step.loopGuard rfl rfl) (fun h => nomatch h) (fun h => nomatch h)
  have h := h.step (Step.run rfl) (fun h => nomatch h) (fun h => nomatch h)
  have h := h.step (Step.clear rfl) (fun _ _ => Or.inl rfl) (fun h => nomatch h)
  have h := h.step (Step.loopUnguard rfl) (fun h => nomatch h) (fun h => nomatch h)
  exact ⟨_, h, rfl, rfl⟩

/-! ### A message that is never used -/

/-- A step that is neither the arrival of a message nor a wake-up without notification. -/
def Undisturbed (s t : Feed) : Prop := Step s t ∧ t.newest = s.newest ∧ ¬ (s.wpc = .waiting ∧ t.wpc = .test)

/-- **C71, finding.** A message can be received and never used, although the planner is waiting for one: it arrives while
the worker is busy with the one before, so its notification is lost.  From the state reached, nothing but a
further message (or a spurious wake-up) makes the planner run. -/
theorem C71_lost_message_violated :
    ∃ s, Reach s ∧ s.newest = 2 ∧ (∀ r ∈ s.runs, r.1 = 1) ∧ s.flag = false ∧
      ∀ t, Relation.ReflTransGen Undisturbed s t → t.runs = s.runs ∧ t.flag = false ∧ t.wpc = .waiting := by
  have h := Reach.init
  have h := h.step (Step.wait rfl)
  have h := h.step (Step.fire rfl)
  have h := h.step (Step.pump rfl rfl)
  have h := h.step (Step.receiveWake rfl rfl)
  have h := h.step (Step.testLoop rfl rfl)
  have h := h.step (Step.copy rfl (by decide))
  have h := h.step (Step.receive rfl (by decide))
  have h := h.step (Step.transform rfl)
  have h := h.step (Step.guard rfl rfl)
  have h := h.step (Step.setFlag rfl)
  have h := h.step (Step.move rfl)
  have h := h.step (Step.unguard rfl)
  have h := h.step (Step.testLeave rfl rfl)
  have h := h.step (Step.wait rfl)
  have h := h.step (Step.pumped rfl)
  have h := h.step (Step.leave rfl rfl)
  have h := h.step (Step.loopGuard rfl rfl)
  have h := h.step (Step.run rfl)
  have h := h.step (Step.clear rfl)
  have h := h.step (Step.loopUnguard rfl)
  refine ⟨_, h, rfl, ?_, rfl, ?_⟩
  · intro r hr
    simp [feedInit] at hr
    rw [hr]
  · intro t ht
    suffices hs : (t.runs = [(1, 1)] ∧ t.flag = false ∧ t.wpc = .waiting) ∧ (t.cpc = .idle ∨ t.cpc = .polling ∨ t.cpc = .pumping) by
      exact hs.1
    induction ht with
    | refl => exact ⟨⟨rfl, rfl, rfl⟩, Or.inl rfl⟩
    | tail _ st ih =>
      obtain ⟨⟨i1, i2, i3⟩, i4⟩ := ih
      obtain ⟨st, hn, hw⟩ := st
      cases st <;> simp_all

/-! ### Start-up -/

/-- **C71, finding.** The worker is started before the mutexes and the condition variable it uses exist: if it is scheduled
before the main thread goes on, it dereferences a null pointer — at any of the three points. -/
theorem C71_startup_race_violated : ∀ k ≤ 2, BootReach ⟨k, none⟩ := by
  intro k hk
  have h0 := BootReach.init
  have c1 := h0.step (BootStep.create (by decide))
  have l1 := c1.step (BootStep.lock rfl)
  have c2 := l1.step (BootStep.create (by decide))
  interval_cases k
  · exact h0.step (BootStep.lock rfl)
  · exact l1.step (BootStep.wait rfl)
  · exact c2.step (BootStep.wait rfl)

/-- **C71 (part).** If the main thread creates all three objects before the worker takes its first step, start-up
is safe.  Missing: nothing makes the worker wait for that. -/
theorem C71_startup_partial (b c : Boot) (hb : b.created = 3) (hw : b.worker = some 0) (h : Relation.ReflTransGen BootStep b c) :
    c.worker ≠ none := by
  suffices hs : c.created = 3 ∧ c.worker ≠ none from hs.2
  induction h with
  | refl => exact ⟨hb, by rw [hw]; simp⟩
  | tail _ st ih =>
    obtain ⟨i1, i2⟩ := ih
    cases st <;> simp_all

/-- Non-vacuity: that state is reached when the worker is not scheduled. -/
example : BootReach ⟨3, some 0⟩ :=
  ((BootReach.init.step (BootStep.create (by decide))).step (BootStep.create (by decide))).step (BootStep.create (by decide))

end SlpNode
end Avoidance
