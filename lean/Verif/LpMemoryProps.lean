import Verif.SeenObstacleProps
import Verif.CloudExactProps

/-!
# What the local planner remembers over a whole flight (C88)
-/

namespace Avoidance

variable {Q : PriorityQueue (Candidate ℝ) Candidate.lt}

/-! ## Specification -/

/-- Time of the last run of a history; before the first run it is 0. -/
noncomputable def lastRun (es : List LpEvent) : ℝ :=
  ((es.filterMap fun e => match e with | .run t => some t | _ => none).getLast?).getD 0

/-- The point `p` was measured at time `t` of the history: it is a finite point of a sensor cloud at hand at a run at `t`, and it was
within the sensor range of the configuration in force, measured from the vehicle. -/
def MeasuredAt (es : List LpEvent) (p : V3 ℝ) (t : ℝ) : Prop :=
  ∃ before after, es = before ++ .run t :: after ∧ p ∈ (lastClouds before).flatten.filterMap V3.finite? ∧
    ∀ c x v q, lastConfig before = some c → lastState before = some (x, v, q) →
      c.min_sensor_range * c.min_sensor_range < distSq x p ∧ distSq x p < c.max_sensor_range * c.max_sensor_range

/-- Events during which the vehicle hovers and nothing about its sensors changes. -/
def Hover : LpEvent → Prop
  | .state .. => False
  | .fov .. => False
  | .config _ => False
  | _ => True

/-! ## Proofs -/

theorem lastRun_known (es : List LpEvent) : ∀ s, loopM (lpStep Q) lpInit es = some s → s.last_process_time = lastRun es := by
  induction es using List.reverseRecOn with
  | nil =>
    intro s h
    obtain rfl := Option.some.inj h
    rfl
  | append_singleton es e ih =>
    intro s' h
    obtain ⟨s, h1, h2⟩ := loopM_snoc h
    have k := ih s h1
    unfold lastRun
    cases e with
    | run now =>
      rw [filterMap_snoc_some _ es (.run now) now rfl]
      obtain ⟨out, hh, d, st, t, hsp⟩ := run_spec (show s.run Q now = some s' from h2)
      rw [hsp.eq]
      rfl
    | config c =>
      obtain rfl := Option.some.inj h2
      obtain ⟨-, -, -, -, -, -, -, -, -, -, -, g, -⟩ := configure_goal s c
      rw [filterMap_snoc_none _ _ _ rfl, g]
      exact k
    | _ =>
      obtain rfl := Option.some.inj h2
      rw [filterMap_snoc_none _ _ _ rfl]
      exact k

/-- Only runs change the memory. -/
theorem cloud_changes {s s' : LPlanner} {e : LpEvent} (h : lpStep Q s e = some s') (he : ∀ t, e ≠ .run t) : s'.cloud = s.cloud := by
  cases e with
  | run now => exact absurd rfl (he now)
  | config c =>
    obtain rfl := Option.some.inj h
    exact configure_cloud s c
  | _ =>
    obtain rfl := Option.some.inj h
    rfl

theorem run_cloud {s s' : LPlanner} {now : ℝ} (h : lpStep Q s (.run now) = some s') :
    processPointcloud (s.cloudParams now) s.cloud s.clouds = some s'.cloud ∧ s.clouds ≠ [] := by
  obtain ⟨out, hh, d, st, t, hsp⟩ := run_spec (show s.run Q now = some s' from h)
  have e : s'.cloud = out := by rw [hsp.eq]
  rw [e]
  refine ⟨hsp.cloud, ?_⟩
  intro hc
  have := hsp.cloud
  unfold processPointcloud at this
  dsimp only at this
  rw [if_pos hc] at this
  cases this

theorem mem_of_mem_pick {A : Type*} {P : List A → A → Prop} {l : List A} {a : A} (h : a ∈ pick P l) : a ∈ l := by
  unfold pick at h
  obtain ⟨x, hx, rfl⟩ := List.mem_map.mp h
  obtain ⟨x, i⟩ := x
  have := (List.mem_filter.mp hx).1
  rw [List.mem_zipIdx_iff_getElem?] at this
  exact List.mem_of_getElem? this

theorem cloud_members {s s' : LPlanner} {now : ℝ} (h : lpStep Q s (.run now) = some s') (a : AgedPoint ℝ) (ha : a ∈ s'.cloud) :
    (a.age = 0 ∧ a.p ∈ usableNew (s.cloudParams now) s.clouds) ∨
    (∃ o ∈ s.cloud, a.p = o.p ∧ a.age = o.age + (now - s.last_process_time) ∧ Carryable (s.cloudParams now) o) := by
  obtain ⟨h1, h2⟩ := run_cloud h
  rw [C24_exact _ _ _ h2] at h1
  rw [← Option.some.inj h1] at ha
  rcases List.mem_append.mp ha with ha | ha
  · obtain ⟨p, hp, rfl⟩ := List.mem_map.mp ha
    exact Or.inl ⟨rfl, mem_of_mem_pick hp⟩
  · obtain ⟨o, ho, rfl⟩ := List.mem_map.mp ha
    right
    refine ⟨o, mem_of_mem_pick ho, rfl, rfl, ?_⟩
    unfold pick at ho
    obtain ⟨x, hx, rfl⟩ := List.mem_map.mp ho
    have hx2 := (List.mem_filter.mp hx).2
    simp only [decide_eq_true_eq] at hx2
    exact hx2.1

theorem MeasuredAt.snoc {es : List LpEvent} {p : V3 ℝ} {t : ℝ} (h : MeasuredAt es p t) (e : LpEvent) : MeasuredAt (es ++ [e]) p t := by
  obtain ⟨b, a, rfl, h2⟩ := h
  exact ⟨b, a ++ [e], by simp, h2⟩

theorem lastRun_snoc (es : List LpEvent) (e : LpEvent) (he : ∀ t, e ≠ .run t) : lastRun (es ++ [e]) = lastRun es := by
  unfold lastRun
  rw [filterMap_snoc_none]
  cases e with
  | run t => exact absurd rfl (he t)
  | _ => rfl

theorem lastRun_run (es : List LpEvent) (t : ℝ) : lastRun (es ++ [.run t]) = t := by
  unfold lastRun
  rw [filterMap_snoc_some _ es (.run t) t rfl]
  rfl

/-- **C88, nothing is invented.** After any history, every remembered point was measured at some run, was in sensor range then, and its
age is exactly the time from that run to the last one. -/
theorem C88_provenance (es : List LpEvent) : ∀ s, loopM (lpStep Q) lpInit es = some s → ∀ a ∈ s.cloud,
    ∃ t, MeasuredAt es a.p t ∧ a.age = lastRun es - t := by
  induction es using List.reverseRecOn with
  | nil =>
    intro s h a ha
    obtain rfl := Option.some.inj h
    cases ha
  | append_singleton es e ih =>
    intro s' h a ha
    obtain ⟨s, h1, h2⟩ := loopM_snoc h
    by_cases he : ∀ t, e ≠ .run t
    · rw [cloud_changes h2 he] at ha
      obtain ⟨t, m1, m2⟩ := ih s h1 a ha
      exact ⟨t, m1.snoc e, by rw [lastRun_snoc es e he]; exact m2⟩
    · push Not at he
      obtain ⟨now, rfl⟩ := he
      rw [lastRun_run]
      rcases cloud_members h2 a ha with ⟨x1, x2⟩ | ⟨o, ho, x1, x2, -⟩
      · refine ⟨now, ⟨es, [], rfl, ?_, ?_⟩, by rw [x1]; ring⟩
        · rw [← clouds_known es s h1]
          exact (List.mem_filter.mp x2).1
        · intro c x v q hc hs
          have k := knows es s h1
          obtain ⟨k1, -⟩ := k.state x v q hs
          have kc := k.config c hc
          have := of_decide_eq_true (List.mem_filter.mp x2).2
          rw [← k1, ← kc.p1, ← kc.p2]
          exact this
      · obtain ⟨t, m1, m2⟩ := ih s h1 o ho
        refine ⟨t, ?_, ?_⟩
        · rw [x1]
          exact m1.snoc _
        · rw [x2, m2, lastRun_known es s h1]
          ring

/-- **C88, old points are forgotten.** After a run every point in the memory that was not measured by that run was younger than the
configured maximum age at the run before, is within the maximum range of the vehicle, and is outside the fields of view. -/
theorem C88_forgotten (es : List LpEvent) (now : ℝ) (s s' : LPlanner) (h : loopM (lpStep Q) lpInit es = some s)
    (hrun : lpStep Q s (.run now) = some s') (c : LpConfig) (hc : lastConfig es = some c) (x v : V3 ℝ) (q : Quat ℝ)
    (hs : lastState es = some (x, v, q)) :
    ∀ a ∈ s'.cloud, distSq x a.p < c.max_sensor_range * c.max_sensor_range ∧
      (a.age = 0 ∨ (a.age - (now - lastRun es) < c.max_point_age ∧
        pointInsideFOV s.fovs (bodyDirection (s.cloudParams now) a.p) = false)) := by
  intro a ha
  have k := knows es s h
  obtain ⟨k1, -⟩ := k.state x v q hs
  have kc := k.config c hc
  rw [← k1, ← kc.p1, ← kc.p4, ← lastRun_known es s h]
  rcases cloud_members hrun a ha with ⟨x1, x2⟩ | ⟨o, ho, x1, x2, x3⟩
  · exact ⟨(of_decide_eq_true (List.mem_filter.mp x2).2).2, Or.inl x1⟩
  · rw [x1]
    refine ⟨x3.1, Or.inr ⟨?_, x3.2.2⟩⟩
    rw [x2]
    have := x3.2.1
    have e : (s.cloudParams now).max_age = s.max_point_age := rfl
    rw [e] at this
    linarith

/-- What does not change while the vehicle hovers. -/
structure SameSensors (s s' : LPlanner) : Prop where
  a1 : s'.min_num_points_per_cell = s.min_num_points_per_cell
  a2 : s'.min_sensor_range = s.min_sensor_range
  a3 : s'.max_sensor_range = s.max_sensor_range
  a5 : s'.max_point_age = s.max_point_age
  a6 : s'.yaw_deg = s.yaw_deg
  a7 : s'.pitch_deg = s.pitch_deg
  a8 : s'.fovs = s.fovs
  a10 : s'.position = s.position

theorem SameSensors.trans {a b c : LPlanner} (h : SameSensors a b) (h' : SameSensors b c) : SameSensors a c :=
  ⟨h'.a1.trans h.a1, h'.a2.trans h.a2, h'.a3.trans h.a3, h'.a5.trans h.a5, h'.a6.trans h.a6, h'.a7.trans h.a7, h'.a8.trans h.a8,
    h'.a10.trans h.a10⟩

theorem hover_same {s s' : LPlanner} {e : LpEvent} (h : lpStep Q s e = some s') (he : Hover e) : SameSensors s s' := by
  cases e with
  | run now =>
    have k := run_inputs (show s.run Q now = some s' from h)
    exact ⟨k.a1, k.a2, k.a3, k.a5, k.a6, k.a7, k.a8, k.a10⟩
  | config c => exact absurd he (by simp [Hover])
  | state p v q => exact absurd he (by simp [Hover])
  | fov i f => exact absurd he (by simp [Hover])
  | _ =>
    obtain rfl := Option.some.inj h
    exact ⟨rfl, rfl, rfl, rfl, rfl, rfl, rfl, rfl⟩

/-- The parameters of processing differ in the elapsed time at most. -/
theorem SameSensors.params {s s' : LPlanner} (h : SameSensors s s') (t t' : ℝ) :
    s'.cloudParams t' = { s.cloudParams t with elapsed := t' - s'.last_process_time } := by
  unfold LPlanner.cloudParams
  rw [h.a1, h.a2, h.a3, h.a5, h.a6, h.a7, h.a8, h.a10]

theorem unique_in_cell {c : CloudParams} {l : List (AgedPoint ℝ)} (hn : (l.map fun a => cellOf c a.p).Nodup) {a b : AgedPoint ℝ}
    (ha : a ∈ l) (hb : b ∈ l) (h : cellOf c a.p = cellOf c b.p) : a = b :=
  List.inj_on_of_nodup_map hn ha hb h

/-- **C88, kept while hovering.** Let the history end with a run, after which the memory contains the obstacle point `o`, in range and
outside the fields of view, and let the vehicle hover from then on (no new pose, no new field of view, no new configuration), with any
further events and runs. As long as no run sees enough new points in the 2° cell of the point, and the point was younger
than the maximum age at the run before each run, the point stays in the memory, older by the time that has passed. -/
theorem C88_kept (es : List LpEvent) (s : LPlanner) (t0 : ℝ) (h : loopM (lpStep Q) lpInit (es ++ [.run t0]) = some s)
    (hm : 1 ≤ s.min_num_points_per_cell) (o : AgedPoint ℝ) (ho : o ∈ s.cloud)
    (h2 : pointInsideFOV s.fovs (bodyDirection (s.cloudParams 0) o.p) = false) (later : List LpEvent) (hover : ∀ e ∈ later, Hover e)
    (hfew : ∀ a t b, later = a ++ .run t :: b →
      (newCount (s.cloudParams 0) (lastClouds (es ++ [.run t0] ++ a)) (cellOf (s.cloudParams 0) o.p) : ℤ) < s.min_num_points_per_cell ∧
      o.age + (lastRun (es ++ [.run t0] ++ a) - t0) < s.max_point_age) :
    ∀ s', loopM (lpStep Q) s later = some s' →
      ∃ o' ∈ s'.cloud, o'.p = o.p ∧ o'.age = o.age + (lastRun (es ++ [.run t0] ++ later) - t0) := by
  -- one point per cell in the memory
  obtain ⟨s0, g1, g2⟩ := loopM_snoc h
  have hsame0 : SameSensors s0 s := hover_same g2 trivial
  have hnod0 : (s.cloud.map fun a => cellOf (s.cloudParams 0) a.p).Nodup := by
    obtain ⟨r1, r2⟩ := run_cloud g2
    have := C24_one_per_cell (s0.cloudParams t0) (by show 1 ≤ s0.min_num_points_per_cell; rw [← hsame0.a1]; exact hm) _ _ _ r1
    have e : ∀ p, cellOf (s.cloudParams 0) p = cellOf (s0.cloudParams t0) p := by
      intro p
      rw [hsame0.params t0 0]
      rfl
    simp only [e]
    exact this
  have hrange0 : distSq s.position o.p < s.max_sensor_range * s.max_sensor_range := by
    obtain ⟨r1, r2⟩ := run_cloud g2
    have := (C24_range (s0.cloudParams t0) (by show 1 ≤ s0.min_num_points_per_cell; rw [← hsame0.a1]; exact hm) _ _ _ r1 o ho).1
    rw [hsame0.a10, hsame0.a3]
    exact this
  suffices H : ∀ s', loopM (lpStep Q) s later = some s' → SameSensors s s' ∧
      (s'.cloud.map fun a => cellOf (s.cloudParams 0) a.p).Nodup ∧
      ∃ o' ∈ s'.cloud, o'.p = o.p ∧ o'.age = o.age + (lastRun (es ++ [.run t0] ++ later) - t0) from fun s' hs' => (H s' hs').2.2
  induction later using List.reverseRecOn with
  | nil =>
    intro s' hs'
    obtain rfl := Option.some.inj hs'
    refine ⟨⟨rfl, rfl, rfl, rfl, rfl, rfl, rfl, rfl⟩, hnod0, o, ho, rfl, ?_⟩
    rw [List.append_nil, lastRun_run]
    ring
  | append_singleton later e ih =>
    intro s' hs'
    obtain ⟨s1, w1, w2⟩ := loopM_snoc hs'
    obtain ⟨i1, i2, o1, i3, i4, i5⟩ := ih (fun e he => hover e (by simp [he])) (fun a t b hab => hfew a t (b ++ [e]) (by rw [hab]; simp)) s1 w1
    have hstep : SameSensors s1 s' := hover_same w2 (hover e (by simp))
    have hall : SameSensors s s' := i1.trans hstep
    refine ⟨hall, ?_⟩
    by_cases he : ∀ t, e ≠ .run t
    · rw [cloud_changes w2 he]
      refine ⟨i2, o1, i3, i4, ?_⟩
      rw [← List.append_assoc, lastRun_snoc _ e he]
      exact i5
    · push Not at he
      obtain ⟨now, rfl⟩ := he
      have hpre : loopM (lpStep Q) lpInit (es ++ [.run t0] ++ later) = some s1 := by
        rw [loopM_append', h]
        exact w1
      obtain ⟨f1, f2⟩ := hfew later now [] rfl
      obtain ⟨r1, r2⟩ := run_cloud w2
      have ecell : ∀ p, cellOf (s1.cloudParams now) p = cellOf (s.cloudParams 0) p := by
        intro p
        rw [i1.params 0 now]
        rfl
      have hmin : 1 ≤ (s1.cloudParams now).min_points := by
        show 1 ≤ s1.min_num_points_per_cell
        rw [i1.a1]
        exact hm
      have hcount : (newCount (s1.cloudParams now) s1.clouds (cellOf (s1.cloudParams now) o.p) : ℤ) < (s1.cloudParams now).min_points := by
        rw [ecell, clouds_known _ s1 hpre, i1.params 0 now]
        exact f1
      have hcarry : Carryable (s1.cloudParams now) o1 := by
        refine ⟨?_, ?_, ?_⟩
        · show distSq s1.position o1.p < s1.max_sensor_range * s1.max_sensor_range
          rw [i4, i1.a10, i1.a3]
          exact hrange0
        · show o1.age < s1.max_point_age
          rw [i5, i1.a5]
          exact f2
        · rw [i4, i1.params 0 now]
          exact h2
      have hnod := C24_one_per_cell (s1.cloudParams now) hmin _ _ _ r1
      simp only [ecell] at hnod
      refine ⟨hnod, ?_⟩
      obtain ⟨a, ha, hac⟩ := (C24_complete (s1.cloudParams now) hmin _ _ _ r1).2 o1 i3 hcarry
      obtain ⟨out, q1, q2⟩ := C24_sound (s1.cloudParams now) hmin s1.cloud s1.clouds r2
      rw [r1] at q1
      obtain rfl := Option.some.inj q1
      rw [← List.append_assoc, lastRun_run]
      rcases q2 a ha with ⟨-, -, z⟩ | ⟨o2, z1, z2, z3, -, -⟩
      · exfalso
        rw [hac, i4] at z
        omega
      · have : o2 = o1 := unique_in_cell i2 z1 i3 (by rw [← ecell, ← ecell, ← z2, hac])
        subst this
        refine ⟨a, ha, by rw [z2, i4], ?_⟩
        rw [z3, i5, show (s1.cloudParams now).elapsed = now - s1.last_process_time from rfl, lastRun_known _ s1 hpre]
        ring

/-- **C88, still avoided.** In the situation of `C88_kept`, if the point is at least a millimetre away and its direction is up to 48° above or
below the horizon, then every further run makes a plan in which that direction is occupied, although the sensors do
not see it any more. -/
theorem C88_still_occupied (es : List LpEvent) (s : LPlanner) (t0 : ℝ) (h : loopM (lpStep Q) lpInit (es ++ [.run t0]) = some s)
    (hm : 1 ≤ s.min_num_points_per_cell) (o : AgedPoint ℝ) (ho : o ∈ s.cloud)
    (h2 : pointInsideFOV s.fovs (bodyDirection (s.cloudParams 0) o.p) = false) (later : List LpEvent) (now : ℝ) (hover : ∀ e ∈ later, Hover e)
    (hfew : ∀ a t b, later ++ [.run now] = a ++ .run t :: b →
      (newCount (s.cloudParams 0) (lastClouds (es ++ [.run t0] ++ a)) (cellOf (s.cloudParams 0) o.p) : ℤ) < s.min_num_points_per_cell ∧
      o.age + (lastRun (es ++ [.run t0] ++ a) - t0) < s.max_point_age)
    (hmax : 0 ≤ s.max_sensor_range) (hfar : 1 / 1000 ≤ distanceTo s.position o.p) (α β : ℝ) (a1 : -48 ≤ α) (a2 : α < 48)
    (hdir : cellOf (s.cloudParams 0) o.p = fineCell α β) :
    ∀ s', loopM (lpStep Q) s (later ++ [.run now]) = some s' →
      s'.last_path_time = now ∧ 0 < s'.histogram.dist (coarseRow α) (coarseCol β) ∧
      s'.histogram.dist (coarseRow α) (coarseCol β) < s.max_sensor_range := by
  intro s' hs'
  have hov : ∀ e ∈ later ++ [LpEvent.run now], Hover e := by
    intro e he
    rcases List.mem_append.mp he with he | he
    · exact hover e he
    · rw [List.mem_singleton] at he
      rw [he]
      trivial
  obtain ⟨o', k1, k2, -⟩ := C88_kept es s t0 h hm o ho h2 (later ++ [.run now]) hov hfew s' hs'
  obtain ⟨s1, w1, w2⟩ := loopM_snoc hs'
  have hsame : SameSensors s s1 := by
    clear w2 hs' k1 k2 hov hfew
    induction later using List.reverseRecOn generalizing s1 with
    | nil =>
      obtain rfl := Option.some.inj w1
      exact ⟨rfl, rfl, rfl, rfl, rfl, rfl, rfl, rfl⟩
    | append_singleton later e ih =>
      obtain ⟨s2, v1, v2⟩ := loopM_snoc w1
      exact (ih (fun e he => hover e (by simp [he])) s2 v1).trans (hover_same v2 (hover e (by simp)))
  obtain ⟨out, hh, d, st, t, hsp⟩ := run_spec (show s1.run Q now = some s' from w2)
  have ec : s'.cloud = out := by rw [hsp.eq]
  have eh : s'.histogram = hh := by rw [hsp.eq]
  have et : s'.last_path_time = t := by rw [hsp.eq]
  rw [ec] at k1
  have ecell : cellOf (s1.cloudParams now) o'.p = fineCell α β := by
    rw [k2, hsame.params 0 now]
    exact hdir
  obtain ⟨l1, l2⟩ := occupied_of_mem (s1.cloudParams now) (by show 1 ≤ s1.min_num_points_per_cell; rw [hsame.a1]; exact hm) s1.cloud s1.clouds
    out hsp.cloud (by show 0 ≤ s1.max_sensor_range; rw [hsame.a3]; exact hmax) α β a1 a2 o' k1 ecell
    (by show _ ≤ distanceTo s1.position o'.p; rw [k2, hsame.a10]; exact hfar) hh hsp.hist
  obtain ⟨b1, b2, b3, -⟩ := coarse_bounds α β a1 a2
  obtain ⟨hd, e1, d1, d2⟩ := newHistogram_dims out s1.position
  rw [hsp.hist] at e1
  obtain rfl := Option.some.inj e1
  obtain ⟨t1, -, -⟩ := hsp.planned (isEmpty_false d1 d2 (by omega) b3 l1)
  rw [eh, et]
  refine ⟨t1, lt_trans (by unfold fltMin; positivity) l1, ?_⟩
  rw [← hsame.a3]
  exact l2

/-! ### Non-vacuity -/

/-- The obstacle of `exampleSeenHistory`, seen once by a sensor whose field of view is not known, and then no more. -/
noncomputable def exampleHoverHistory : List LpEvent :=
  [.applyGoal, .config exampleSeenConfig, .clouds [[⟨.fin 5, .fin 0, .fin 3⟩]], .state ⟨0, 0, 3⟩ ⟨1, 0, 0⟩ ⟨1, 0, 0, 0⟩, .goal ⟨20, 0, 3⟩]

theorem exampleHover_runs (Q : PriorityQueue (Candidate ℝ) Candidate.lt) (later : List LpEvent)
    (hl : later = [] ∨ later = [.run 1, .clouds [[]]]) (s : LPlanner) (now : ℝ)
    (h : loopM (lpStep Q) lpInit (exampleHoverHistory ++ later) = some s) : ∃ s', lpStep Q s (.run now) = some s' := by
  have hnorm : ((⟨20, 0, 3⟩ : V3 ℝ).minus ⟨0, 0, 3⟩).norm = 20 := by
    unfold V3.norm V3.dot V3.minus
    norm_num
    rw [show (400 : ℝ) = 20 ^ 2 by norm_num, Real.sqrt_sq (by norm_num)]
  have hg : goalAfter (exampleHoverHistory ++ later) = ⟨20, 0, 3⟩ := by rcases hl with rfl | rfl <;> rfl
  refine C86_run_defined (exampleHoverHistory ++ later) now s h exampleSeenConfig (by rcases hl with rfl | rfl <;> rfl) ⟨0, 0, 3⟩ ⟨1, 0, 0⟩
    ⟨1, 0, 0, 0⟩ (by rcases hl with rfl | rfl <;> rfl) ⟨.applyGoal, by simp [exampleHoverHistory], Or.inl rfl⟩
    (by rcases hl with rfl | rfl <;> (unfold lastClouds; simp [exampleHoverHistory])) (by norm_num [exampleSeenConfig])
    (by norm_num [exampleSeenConfig]) (by norm_num [exampleSeenConfig]) (by norm_num [exampleSeenConfig]) (by norm_num [exampleSeenConfig])
    (by rw [hg]; intro e; have := congrArg V3.x e; norm_num at this) (by rw [hg, hnorm]; norm_num [exampleSeenConfig])

/-- The hypotheses of `C88_kept` and `C88_still_occupied` are met. -/
theorem exampleHover_meets (Q : PriorityQueue (Candidate ℝ) Candidate.lt) :
    ∃ s s' o, loopM (lpStep Q) lpInit (exampleHoverHistory ++ [.run 1]) = some s ∧ 1 ≤ s.min_num_points_per_cell ∧ o ∈ s.cloud ∧
      o.p = ⟨5, 0, 3⟩ ∧ pointInsideFOV s.fovs (bodyDirection (s.cloudParams 0) o.p) = false ∧ 0 ≤ s.max_sensor_range ∧
      1 / 1000 ≤ distanceTo s.position o.p ∧ cellOf (s.cloudParams 0) o.p = fineCell 0 90 ∧
      (∀ a t b, [LpEvent.clouds [[]]] ++ [.run 2] = a ++ .run t :: b →
        (newCount (s.cloudParams 0) (lastClouds (exampleHoverHistory ++ [.run 1] ++ a)) (cellOf (s.cloudParams 0) o.p) : ℤ) <
          s.min_num_points_per_cell ∧ o.age + (lastRun (exampleHoverHistory ++ [.run 1] ++ a) - 1) < s.max_point_age) ∧
      loopM (lpStep Q) s ([.clouds [[]]] ++ [.run 2]) = some s' := by
  have h0 : ∃ s, loopM (lpStep Q) lpInit (exampleHoverHistory ++ []) = some s := ⟨_, rfl⟩
  obtain ⟨s0, h0⟩ := h0
  obtain ⟨s, hrun⟩ := exampleHover_runs Q [] (Or.inl rfl) s0 1 h0
  have h : loopM (lpStep Q) lpInit (exampleHoverHistory ++ [.run 1]) = some s := by
    rw [loopM_append']
    rw [List.append_nil] at h0
    rw [h0, Option.bind_some]
    show (lpStep Q s0 (.run 1)).bind _ = _
    rw [hrun]
    rfl
  have hc : loopM (lpStep Q) lpInit (exampleHoverHistory ++ [.run 1, .clouds [[]]]) = some { s with clouds := [[]] } := by
    rw [show exampleHoverHistory ++ [.run 1, .clouds [[]]] = (exampleHoverHistory ++ [.run 1]) ++ [.clouds [[]]] by simp, loopM_append', h]
    rfl
  obtain ⟨s', hs'⟩ := exampleHover_runs Q _ (Or.inr rfl) _ 2 hc
  have k := knows _ s h
  obtain ⟨k1, -⟩ := k.state ⟨0, 0, 3⟩ ⟨1, 0, 0⟩ ⟨1, 0, 0, 0⟩ rfl
  have kc := k.config exampleSeenConfig rfl
  have hmin : s.min_num_points_per_cell = 1 := kc.p5
  have k' := knows _ s0 h0
  obtain ⟨k1', -⟩ := k'.state ⟨0, 0, 3⟩ ⟨1, 0, 0⟩ ⟨1, 0, 0, 0⟩ rfl
  have kc' := k'.config exampleSeenConfig rfl
  obtain ⟨r1, r2⟩ := run_cloud hrun
  have e1 : (s0.cloudParams 1).position = ⟨0, 0, 3⟩ := k1'
  have e2 : (s0.cloudParams 1).min_range = 1 / 5 := kc'.p2
  have e3 : (s0.cloudParams 1).max_range = 15 := kc'.p1
  have e6 : (s0.cloudParams 1).min_points = 1 := kc'.p5
  have hcl : s0.clouds = [[⟨.fin 5, .fin 0, .fin 3⟩]] := clouds_known _ s0 h0
  have hus : usableNew (s0.cloudParams 1) s0.clouds = [⟨5, 0, 3⟩] := by
    unfold usableNew
    have e4 : s0.clouds.flatten.filterMap V3.finite? = [(⟨5, 0, 3⟩ : V3 ℝ)] := by rw [hcl]; rfl
    rw [e1, e2, e3, e4, List.filter_cons_of_pos, List.filter_nil]
    apply decide_eq_true
    unfold distSq
    norm_num
  have hcell : ∀ c : CloudParams, c.position = ⟨0, 0, 3⟩ → cellOf c ⟨5, 0, 3⟩ = fineCell 0 90 := by
    intro c hc
    have e := C24_cell_of_direction c 5 0 90 (by norm_num) (by norm_num) (by norm_num)
    rw [hc, east_point] at e
    exact e
  obtain ⟨o, ho, hage, -⟩ := (C24_complete (s0.cloudParams 1) (by rw [e6]) _ _ _ r1).1 (fineCell 0 90) (by
    rw [e6]
    unfold newCount
    rw [hus, List.filter_cons_of_pos (by exact decide_eq_true (hcell _ e1))]
    simp)
  have hold : s0.cloud = [] := by
    obtain rfl := Option.some.inj h0
    exact (configure_cloud lpInit.applyGoal exampleSeenConfig).trans rfl
  have hop : o.p = ⟨5, 0, 3⟩ := by
    rcases cloud_members hrun o ho with ⟨-, x⟩ | ⟨o', ho', -⟩
    · rw [hus, List.mem_singleton] at x
      exact x
    · rw [hold] at ho'
      cases ho'
  have hfov : s.fovs = [] := by
    rw [(run_inputs (show s0.run Q 1 = some s from hrun)).a8]
    obtain rfl := Option.some.inj h0
    obtain ⟨-, -, -, -, -, -, -, -, -, -, -, -, g, -⟩ := configure_goal lpInit.applyGoal exampleSeenConfig
    exact g.trans rfl
  refine ⟨s, s', o, h, by rw [hmin], ho, hop, ?_, ?_, ?_, ?_, ?_, ?_⟩
  · rw [hfov]
    rfl
  · rw [kc.p1]
    norm_num [exampleSeenConfig]
  · rw [hop, k1]
    unfold distanceTo distSq
    refine Real.le_sqrt_of_sq_le ?_
    norm_num
  · rw [hop]
    exact hcell _ k1
  · intro a t b hab
    have ha : a = [.clouds [[]]] := by
      rcases a with _ | ⟨x, a⟩
      · simp at hab
      · rcases a with _ | ⟨y, a⟩
        · simp at hab
          rw [hab.1]
        · simp at hab
    subst ha
    have l1 : lastClouds (exampleHoverHistory ++ [.run 1] ++ [.clouds [[]]]) = [[]] := rfl
    have l2 : lastRun (exampleHoverHistory ++ [.run 1] ++ [.clouds [[]]]) = 1 := rfl
    rw [l1, l2, hmin, hage, kc.p4]
    refine ⟨?_, by norm_num [exampleSeenConfig]⟩
    unfold newCount usableNew
    simp
  · show (lpStep Q { s with clouds := [[]] } (.run 2)).bind _ = _
    rw [hs']
    rfl

end Avoidance
