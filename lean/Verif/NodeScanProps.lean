import Verif.NodeAvoidProps
import Verif.LpMemoryProps
import Mathlib.Analysis.Real.Pi.Bounds

/-!
# Obstacle distances for the autopilot, end to end (local_planner_nodelet.cpp, local_planner.cpp, planner_functions.cpp)
-/

set_option linter.unusedSectionVars false

namespace Avoidance

variable {Q : PriorityQueue (Candidate ℝ) Candidate.lt}

/-! ## Specification -/

/-- Bin `i` of the message is for the direction `β` (degrees clockwise from north). -/
def BinOf (i : ℕ) (β : ℝ) : Prop := i < 60 ∧ ∃ n : ℤ, 6 * (i : ℝ) ≤ β + 360 * n ∧ β + 360 * n < 6 * (i : ℝ) + 6

/-- One of the borders of bin `i` is in the field of view of the camera, for a vehicle that looks to `yaw` (degrees counter-clockwise from east),
3° above the horizon (C63). -/
def BinInView (f : FOV ℝ) (yaw : ℝ) (i : ℕ) : Prop :=
  pointInsideFOV1 f ⟨-3, wrap180 (90 - 6 * (i : ℝ) - yaw), 1⟩ = true ∨ pointInsideFOV1 f ⟨-3, wrap180 (90 - (6 * (i : ℝ) + 6) - yaw), 1⟩ = true

/-- The obstacle points in bin `i`, row `e` (`6 e - 90` to `6 e - 84` degrees above the horizon) are at the mean distance `m`, less than a metre
above or below the vehicle. -/
noncomputable def RowShows (cloud : List (AgedPoint ℝ)) (p : V3 ℝ) (i e : ℕ) (m : ℝ) : Prop :=
  let pts := (cloud.map (·.p)).filter fun x => polarToHistogramIndex (cartesianToPolarHistogram x p) 6 = ((((i + 30) % 60 : ℕ) : ℤ), (e : ℤ))
  pts ≠ [] ∧ m = (pts.map (distanceTo p)).sum / (pts.length : ℝ) ∧ 0 < m ∧ m * |Real.sin (((e * 6 + 3 - 90 : ℤ) : ℝ) * degToRad)| < 1

/-! ## Lemmas -/

theorem bin_column {i : ℕ} {β : ℝ} (h : BinOf i β) : coarseCol β = (i + 30) % 60 := by
  obtain ⟨hi, n, h1, h2⟩ := h
  obtain ⟨⟨w1, w2, m, hm⟩, -⟩ := C01_wrap180_canonical β
  unfold coarseCol
  have hb : (i : ℝ) < 60 := by exact_mod_cast hi
  have hi' : (i : ℝ) ≤ 59 := by exact_mod_cast (by omega : i ≤ 59)
  -- wrap180 β = (β + 360 n) - 360 k with k = 0 or 1
  obtain ⟨k, hk⟩ : ∃ k : ℤ, wrap180 β = β + 360 * n - 360 * k := ⟨n + m, by push_cast; linarith⟩
  have k1 : (k : ℝ) < 2 := by nlinarith
  have k2 : (-1 : ℝ) < k := by nlinarith
  have k1' : k < 2 := by exact_mod_cast k1
  have k2' : -1 < k := by exact_mod_cast k2
  obtain rfl | rfl : k = 0 ∨ k = 1 := by omega
  · have hi3 : i < 30 := by
      have : (i : ℝ) < 30 := by push_cast at hk; linarith
      exact_mod_cast this
    have : ⌊(wrap180 β + 180) / 6⌋ = ((i + 30 : ℕ) : ℤ) := by
      rw [Int.floor_eq_iff]
      push_cast at hk ⊢
      constructor <;> linarith
    rw [this, Int.toNat_natCast]
    omega
  · have hi3 : 30 ≤ i := by
      by_contra hlt
      have : (i : ℝ) + 1 ≤ 30 := by exact_mod_cast (by omega : i + 1 ≤ 30)
      push_cast at hk
      linarith
    obtain ⟨j, rfl⟩ := Nat.exists_eq_add_of_le hi3
    have : ⌊(wrap180 β + 180) / 6⌋ = ((j : ℕ) : ℤ) := by
      rw [Int.floor_eq_iff]
      push_cast at hk h1 h2 ⊢
      constructor <;> linarith
    rw [this, Int.toNat_natCast]
    omega

theorem bin_view (fovs : List (FOV ℝ)) (i : ℕ) (hi : i < 60) (pos : V3 ℝ) (yaw : ℝ) :
    histogramIndexYawInsideFOV fovs (((i + 30) % 60 : ℕ) : ℤ) pos yaw = true ↔ ∃ f ∈ fovs, BinInView f yaw i := by
  have hj : (i + 30) % 60 < 60 := Nat.mod_lt _ (by norm_num)
  rw [C63_histogram_column_inside fovs _ (by omega) (by omega) pos yaw, (C11_fov_list fovs _).1, (C11_fov_list fovs _).1]
  have key : ∀ x : ℝ, wrap180 (90 - (6 * ((((i + 30) % 60 : ℕ) : ℤ) : ℝ) - x) - yaw) = wrap180 (90 - (6 * (i : ℝ) + 180 - x) - yaw) := by
    intro x
    rcases Nat.lt_or_ge i 30 with h | h
    · rw [Nat.mod_eq_of_lt (by omega)]
      push_cast
      congr 1
      ring
    · obtain ⟨j, rfl⟩ := Nat.exists_eq_add_of_le h
      rw [show (30 + j + 30) % 60 = j by omega]
      have e : (90 - (6 * ((j : ℕ) : ℝ) - x) - yaw) = 90 - (6 * ((30 + j : ℕ) : ℝ) + 180 - x) - yaw + 360 * ((1 : ℤ) : ℝ) := by
        push_cast
        ring
      rw [show (((j : ℕ) : ℤ) : ℝ) = ((j : ℕ) : ℝ) by norm_cast, e, (C01_wrap180_turns _ 1).2]
  rw [key 180, key 174, show 90 - (6 * (i : ℝ) + 180 - 180) - yaw = 90 - 6 * (i : ℝ) - yaw by ring,
    show 90 - (6 * (i : ℝ) + 180 - 174) - yaw = 90 - (6 * (i : ℝ) + 6) - yaw by ring]
  constructor
  · rintro (⟨f, hf, h⟩ | ⟨f, hf, h⟩)
    · exact ⟨f, hf, Or.inl h⟩
    · exact ⟨f, hf, Or.inr h⟩
  · rintro ⟨f, hf, h | h⟩
    · exact Or.inl ⟨f, hf, h⟩
    · exact Or.inr ⟨f, hf, h⟩

/-- What the rows of a column of the histogram show. -/
theorem row_shows {cloud : List (AgedPoint ℝ)} {p : V3 ℝ} {h : Histogram ℝ} (hg : generateNewHistogram (Histogram.new 6) cloud p = some h)
    (i e : ℕ) (he : e < 30) : (Reportable h e ((i + 30) % 60) ↔ RowShows cloud p i e (h.dist e ((i + 30) % 60))) ∧
    ∀ m, RowShows cloud p i e m → m = h.dist e ((i + 30) % 60) := by
  obtain ⟨h', g1, g2⟩ := C25_mean_distance cloud p
  rw [hg] at g1
  obtain rfl := Option.some.inj g1
  obtain ⟨hd, e1, d1, d2⟩ := newHistogram_dims cloud p
  rw [show ALPHA_RES = 6 from rfl, hg] at e1
  obtain rfl := Option.some.inj e1
  have hj : (i + 30) % 60 < 60 := Nat.mod_lt _ (by norm_num)
  have g3 := g2 e ((i + 30) % 60) he hj
  rw [getDist_nat (by rw [d1]; exact he) (by rw [d2]; exact hj)] at g3
  have g3 := Option.some.inj g3
  have epts : pointsInCell cloud p e ((i + 30) % 60) =
      (cloud.map (·.p)).filter fun x => polarToHistogramIndex (cartesianToPolarHistogram x p) 6 = ((((i + 30) % 60 : ℕ) : ℤ), (e : ℤ)) := rfl
  unfold RowShows Reportable
  dsimp only
  rw [← epts]
  constructor
  · constructor
    · rintro ⟨a, b⟩
      rw [g3] at a
      split_ifs at a with hn
      · exact absurd a (lt_irrefl _)
      · refine ⟨hn, ?_, by rw [g3, if_neg hn]; exact a, b⟩
        rw [g3, if_neg hn]
    · rintro ⟨-, -, c, d⟩
      exact ⟨c, d⟩
  · rintro m ⟨a, b, -⟩
    rw [b, g3, if_neg a]

/-- **C94, what the message says.** After any history with a configuration, a pose and autopilot parameters with `CP_DIST` above 0, a run of the planner
fills a message of 60 bins. A bin that no camera has in view is not a number. A bin in view shows the smallest of the mean distances of its four rows
within 12° of the horizon in which obstacle points are less than a metre above or below the vehicle; if there is none, or that is
not above the minimum sensor range, it shows the maximum range and a centimetre. -/
theorem C94_bins (es : List LpEvent) (now : ℝ) (s s' : LPlanner) (h : loopM (lpStep Q) lpInit es = some s)
    (hrun : lpStep Q s (.run now) = some s') (c : LpConfig) (hc : lastConfig es = some c) (p v : V3 ℝ) (q : Quat ℝ)
    (hs : lastState es = some (p, v, q)) (px : LpPx4) (hx : lastPx4 es = some px) (cp : ℝ) (hcp : px.cp_dist = .fin cp) (hcp0 : 0 < cp) :
    ∃ r, s'.distances = some r ∧ r.length = 60 ∧ ∀ i < 60,
      (¬ (∃ f ∈ s.fovs, BinInView f (getYawFromQuaternion q) i) → r[i]? = some none) ∧
      ((∃ f ∈ s.fovs, BinInView f (getYawFromQuaternion q) i) →
        (∀ e m, 13 ≤ e → e ≤ 16 → RowShows s'.cloud p i e m → c.min_sensor_range < m →
          (∀ e' m', 13 ≤ e' → e' ≤ 16 → RowShows s'.cloud p i e' m' → m ≤ m') → r[i]? = some (some m)) ∧
        (((∀ e m, 13 ≤ e → e ≤ 16 → ¬ RowShows s'.cloud p i e m) ∨
          ∃ e m, 13 ≤ e ∧ e ≤ 16 ∧ RowShows s'.cloud p i e m ∧ m ≤ c.min_sensor_range) → 0 ≤ c.min_sensor_range →
          r[i]? = some (some (c.max_sensor_range + 1 / 100)))) := by
  obtain ⟨comp, r, hcomp, hr, hd⟩ := (C86_distances es now s s' h hrun c hc p v q hs px hx).1 cp hcp hcp0
  have k := knows es s h
  obtain ⟨k1, -⟩ := k.state p v q hs
  obtain ⟨out, hh, d, st, t, hsp⟩ := run_spec (show s.run Q now = some s' from hrun)
  have hgen : generateNewHistogram (Histogram.new 6) s'.cloud p = some s'.histogram := by
    rw [hsp.eq, ← k1]
    exact hsp.hist
  obtain ⟨hh', e1, d1, d2⟩ := newHistogram_dims s'.cloud p
  rw [show ALPHA_RES = 6 from rfl, hgen] at e1
  obtain rfl := Option.some.inj e1
  obtain ⟨comp', hc1, -, hc3⟩ := C26_compress s'.histogram d1 d2 p
  rw [hcomp] at hc1
  obtain rfl := Option.some.inj hc1
  obtain ⟨comp2, f1, f2, f3⟩ := compress_dims s'.histogram d1 d2 p
  rw [show ALPHA_RES = 6 from rfl, hcomp] at f1
  obtain rfl := Option.some.inj f1
  obtain ⟨ranges, r1, r2, r3⟩ := C32_obstacle_distances comp f2 f3 s.fovs p (getYawFromQuaternion q) c.min_sensor_range c.max_sensor_range
  rw [hr] at r1
  obtain rfl := Option.some.inj r1
  refine ⟨r, hd, r2, fun i hi => ?_⟩
  obtain ⟨x1, -⟩ := r3 i hi
  have hj : (i + 30) % 60 < 60 := Nat.mod_lt _ (by norm_num)
  obtain ⟨y1, y2, y3⟩ := hc3 _ hj
  rw [← bin_view s.fovs i hi p]
  refine ⟨fun hv => by rw [x1, if_neg hv], fun hv => ?_⟩
  rw [if_pos hv] at x1
  constructor
  · intro e m he1 he2 hm hmin hle
    obtain ⟨z1, z2⟩ := row_shows hgen i e (by omega)
    have em := z2 m hm
    subst em
    have hrep := z1.mpr hm
    have hle1 := y2 e he1 he2 hrep
    have hne : comp.dist 0 ((i + 30) % 60) ≠ 0 := fun h0 => (y1.mp h0) e he1 he2 hrep
    obtain ⟨e', e1', e2', rep', eq'⟩ := y3 hne
    have hle2 := hle e' _ e1' e2' ((row_shows hgen i e' (by omega)).1.mp rep')
    have heq : comp.dist 0 ((i + 30) % 60) = s'.histogram.dist e ((i + 30) % 60) := le_antisymm hle1 (by rw [eq']; exact hle2)
    rw [x1, heq, if_pos hmin]
  · intro hor hmin0
    rw [x1, if_neg]
    rcases hor with hno | ⟨e, m, he1, he2, hm, hle⟩
    · have h0 := y1.mpr (fun e a b hrep => hno e _ a b ((row_shows hgen i e (by omega)).1.mp hrep))
      rw [h0]
      linarith
    · obtain ⟨z1, z2⟩ := row_shows hgen i e (by omega)
      have em := z2 m hm
      subst em
      have hle1 := y2 e he1 he2 (z1.mpr hm)
      linarith

/-- A bin in view shows a row, or the maximum range and a centimetre. -/
theorem bin_cases (es : List LpEvent) (now : ℝ) (s s' : LPlanner) (h : loopM (lpStep Q) lpInit es = some s)
    (hrun : lpStep Q s (.run now) = some s') (c : LpConfig) (hc : lastConfig es = some c) (p v : V3 ℝ) (q : Quat ℝ)
    (hs : lastState es = some (p, v, q)) (px : LpPx4) (hx : lastPx4 es = some px) (cp : ℝ) (hcp : px.cp_dist = .fin cp) (hcp0 : 0 < cp)
    (hmin0 : 0 ≤ c.min_sensor_range) :
    ∃ r, s'.distances = some r ∧ r.length = 60 ∧ ∀ i < 60,
      (¬ (∃ f ∈ s.fovs, BinInView f (getYawFromQuaternion q) i) → r[i]? = some none) ∧
      ((∃ f ∈ s.fovs, BinInView f (getYawFromQuaternion q) i) →
        (∃ e m, 13 ≤ e ∧ e ≤ 16 ∧ RowShows s'.cloud p i e m ∧ c.min_sensor_range < m ∧
          (∀ e' m', 13 ≤ e' → e' ≤ 16 → RowShows s'.cloud p i e' m' → m ≤ m') ∧ r[i]? = some (some m)) ∨
        (((∀ e m, 13 ≤ e → e ≤ 16 → ¬ RowShows s'.cloud p i e m) ∨
          ∃ e m, 13 ≤ e ∧ e ≤ 16 ∧ RowShows s'.cloud p i e m ∧ m ≤ c.min_sensor_range) ∧
          r[i]? = some (some (c.max_sensor_range + 1 / 100)))) := by
  obtain ⟨r, r1, r2, r3⟩ := C94_bins es now s s' h hrun c hc p v q hs px hx cp hcp hcp0
  refine ⟨r, r1, r2, fun i hi => ⟨(r3 i hi).1, fun hv => ?_⟩⟩
  obtain ⟨a, b⟩ := (r3 i hi).2 hv
  by_cases hno : (∀ e m, 13 ≤ e → e ≤ 16 → ¬ RowShows s'.cloud p i e m) ∨
      ∃ e m, 13 ≤ e ∧ e ≤ 16 ∧ RowShows s'.cloud p i e m ∧ m ≤ c.min_sensor_range
  · exact Or.inr ⟨hno, b hno hmin0⟩
  · left
    rw [not_or] at hno
    obtain ⟨h1, h2⟩ := hno
    push Not at h1 h2
    have hgen : generateNewHistogram (Histogram.new 6) s'.cloud p = some s'.histogram := by
      obtain ⟨k1, -⟩ := (knows es s h).state p v q hs
      obtain ⟨out, hh, d, st, t, hsp⟩ := run_spec (show s.run Q now = some s' from hrun)
      rw [hsp.eq, ← k1]
      exact hsp.hist
    obtain ⟨e0, m0, f1, f2, f3⟩ := h1
    -- the smallest of the rows shown
    classical
    obtain ⟨S, hSd⟩ : ∃ S, S = (Finset.Icc 13 16).filter fun e => RowShows s'.cloud p i e (s'.histogram.dist e ((i + 30) % 60)) := ⟨_, rfl⟩
    have hval : ∀ e m, 13 ≤ e → e ≤ 16 → RowShows s'.cloud p i e m → m = s'.histogram.dist e ((i + 30) % 60) :=
      fun e m a1 a2 hm => (row_shows hgen i e (by omega)).2 m hm
    have hS : S.Nonempty := ⟨e0, by
      rw [hSd, Finset.mem_filter, Finset.mem_Icc]
      exact ⟨⟨f1, f2⟩, by rw [← hval e0 m0 f1 f2 f3]; exact f3⟩⟩
    obtain ⟨e, he, hle⟩ := Finset.exists_min_image S (fun e => s'.histogram.dist e ((i + 30) % 60)) hS
    rw [hSd, Finset.mem_filter, Finset.mem_Icc] at he
    obtain ⟨⟨g1, g2⟩, g3⟩ := he
    have hmin := h2 e _ g1 g2 g3
    have hall : ∀ e' m', 13 ≤ e' → e' ≤ 16 → RowShows s'.cloud p i e' m' → s'.histogram.dist e ((i + 30) % 60) ≤ m' := by
      intro e' m' b1 b2 b3
      have := hval e' m' b1 b2 b3
      rw [this]
      exact hle e' (by rw [hSd, Finset.mem_filter, Finset.mem_Icc]; exact ⟨⟨b1, b2⟩, by rw [← this]; exact b3⟩)
    exact ⟨e, _, g1, g2, g3, hmin, hall, a e _ g1 g2 g3 hmin hall⟩

/-! ## The node -/

/-- **C94, when distances are sent.** Only the start of a plan publishes distances, at most one message, and none while the newest `CP_DIST` is below 0;
with `CP_DIST` above 0 exactly one, filled by that plan. -/
theorem C94_when (u : Uninit) (l : Launch) (es : List NodeEvent) (s s' : NodeSt) (e : NodeEvent)
    (h : loopM (nodeStep Q) (nodeInit u l) es = some s) (hs : nodeStep Q s e = some s') :
    ((∀ f t, e ≠ .planStart f t) → s'.scans = s.scans) ∧
    ((newestPx4 l es).cp_dist.lt (.fin 0) = true → s'.scans = s.scans) ∧
    (∀ f t, e = .planStart f t → ∀ x, (newestPx4 l es).cp_dist = .fin x → 0 < x →
      ∃ r, s'.planner.distances = some r ∧ s'.scans = s.scans ++ [r]) ∧
    (s'.scans = s.scans ∨ ∃ r, s'.scans = s.scans ++ [r]) := by
  have k := nodeKnows u l es s h
  have hother : (∀ f t, e ≠ .planStart f t) → s'.scans = s.scans := by
    intro hn
    cases e with
    | planStart f t => exact absurd rfl (hn f t)
    | config c a b t =>
      unfold nodeStep at hs
      dsimp only at hs
      split_ifs at hs
      obtain rfl := Option.some.inj hs
      rfl
    | planEnd t =>
      unfold nodeStep at hs
      dsimp only at hs
      split_ifs at hs
      obtain rfl := Option.some.inj hs
      rfl
    | timer t =>
      unfold nodeStep at hs
      dsimp only at hs
      split_ifs at hs
      obtain rfl := Option.some.inj hs
      rfl
    | poll t =>
      unfold nodeStep at hs
      dsimp only at hs
      rw [Option.bind_eq_some_iff] at hs
      obtain ⟨t0, -, hs⟩ := hs
      split_ifs at hs <;> obtain rfl := Option.some.inj hs <;> rfl
    | send t =>
      unfold nodeStep at hs
      dsimp only at hs
      split_ifs at hs
      obtain rfl := Option.some.inj hs
      obtain ⟨-, -, -, -, -, -, -, -, -, -, -, -, -, -, -, q16, -⟩ := sendStep_keeps s t
      exact q16
    | _ =>
      obtain rfl := Option.some.inj hs
      rfl
  have hplan : ∀ f t, e = .planStart f t → s'.scans = s.scans ++ scanOf s'.planner ∧ s'.planner.px4 = newestPx4 l es ∧
      ∃ x, loopM (lpStep Q) lpInit (s.calls ++ updateCalls s f) = some x ∧ lpStep Q x (.run t) = some s'.planner ∧ x.px4 = newestPx4 l es := by
    rintro f t rfl
    obtain ⟨x, hx, hr, -⟩ := plan_calls h hs
    have hsc : s'.scans = s.scans ++ scanOf s'.planner := by
      unfold nodeStep at hs
      dsimp only at hs
      split_ifs at hs
      rw [Option.map_eq_some_iff] at hs
      obtain ⟨pl, -, rfl⟩ := hs
      rfl
    have hpx : x.px4 = newestPx4 l es := by
      rw [(knows _ x hx).px4 _ (updateCalls_lasts s.calls s f).2.2.2]
      exact k.px4
    obtain ⟨out, hh, d, st, tt, hsp⟩ := run_spec (show x.run Q t = some s'.planner from hr)
    refine ⟨hsc, ?_, x, hx, hr, hpx⟩
    have e : s'.planner.px4 = x.px4 := by rw [hsp.eq]
    rw [e]
    exact hpx
  have hcase : (∀ f t, e ≠ .planStart f t) ∨ ∃ f t, e = .planStart f t := by
    by_cases hc : ∃ f t, e = .planStart f t
    · exact Or.inr hc
    · left
      push Not at hc
      exact hc
  refine ⟨hother, ?_, ?_, ?_⟩
  · intro hlt
    rcases hcase with hc | ⟨f, t, hc⟩
    · exact hother hc
    · obtain ⟨a, b, -⟩ := hplan f t hc
      rw [a]
      unfold scanOf
      rw [b, if_pos hlt, List.append_nil]
  · intro f t he x hx hx0
    obtain ⟨a, b, y, y1, y2, y3⟩ := hplan f t he
    obtain ⟨out, hh, d, st, tt, hsp⟩ := run_spec (show y.run Q t = some s'.planner from y2)
    obtain ⟨cc, r, -, -, hd⟩ := hsp.sent (by rw [y3, hx]; simpa [Flt.lt] using hx0)
    have hdist : s'.planner.distances = some r := by rw [hsp.eq]; exact hd
    refine ⟨r, hdist, ?_⟩
    rw [a]
    unfold scanOf
    rw [b, hx, if_neg (by simp [Flt.lt]; exact hx0.le), hdist]
    rfl
  · rcases hcase with hc | ⟨f, t, hc⟩
    · exact Or.inl (hother hc)
    · obtain ⟨a, -⟩ := hplan f t hc
      rw [a]
      unfold scanOf
      split_ifs
      · left; simp
      · cases s'.planner.distances with
        | none => left; simp
        | some r => exact Or.inr ⟨r, rfl⟩

/-- The planner's fields of view after going through the cameras of a frame. -/
theorem planner_fovs_fold (frame : List (List (V3 (Flt ℝ)) × FOV ℝ)) : ∀ (k : ℕ) (p p' : LPlanner), k ≤ p.fovs.length →
    loopM (lpStep Q) p ((frame.zipIdx k).map fun x => LpEvent.fov x.2 x.1.2) = some p' →
    (∀ j < k, p'.fovs[j]? = p.fovs[j]?) ∧ ∀ j x, frame[j]? = some x → p'.fovs[k + j]? = some x.2 := by
  induction frame with
  | nil =>
    intro k p p' hk h
    obtain rfl := Option.some.inj h
    exact ⟨fun _ _ => rfl, fun j x hx => by simp at hx⟩
  | cons f frame ih =>
    intro k p p' hk h
    rw [List.zipIdx_cons, List.map_cons] at h
    have h : loopM (lpStep Q) (p.setFOV k f.2) ((frame.zipIdx (k + 1)).map fun x => LpEvent.fov x.2 x.1.2) = some p' := h
    have hlen : k + 1 ≤ (p.setFOV k f.2).fovs.length := by
      unfold LPlanner.setFOV
      dsimp only
      split_ifs with hlt
      · rw [List.length_set]; omega
      · rw [List.length_append]; simp; omega
    have hat : (p.setFOV k f.2).fovs[k]? = some f.2 ∧ ∀ j < k, (p.setFOV k f.2).fovs[j]? = p.fovs[j]? := by
      unfold LPlanner.setFOV
      dsimp only
      split_ifs with hlt
      · refine ⟨by rw [List.getElem?_set_self hlt], fun j hj => by rw [List.getElem?_set_ne (by omega)]⟩
      · have hk' : k = p.fovs.length := by omega
        refine ⟨by rw [hk']; simp, fun j hj => by rw [List.getElem?_append_left (by omega)]⟩
    obtain ⟨a, b⟩ := ih (k + 1) _ p' hlen h
    refine ⟨fun j hj => by rw [a j (by omega), hat.2 j hj], fun j x hx => ?_⟩
    cases j with
    | zero =>
      obtain rfl : f = x := by simpa using hx
      rw [Nat.add_zero, a k (by omega), hat.1]
    | succ j =>
      have := b j x (by simpa using hx)
      rw [show k + (j + 1) = k + 1 + j by omega]
      exact this

/-- Calls other than fields of view do not change them. -/
theorem planner_fovs_kept (es : List LpEvent) : ∀ p p', loopM (lpStep Q) p es = some p' → (∀ e ∈ es, (∀ i f, e ≠ .fov i f) ∧ ∀ t, e ≠ .run t) →
    p'.fovs = p.fovs := by
  induction es with
  | nil => intro p p' h _; obtain rfl := Option.some.inj h; rfl
  | cons e es ih =>
    intro p p' h hn
    unfold loopM at h
    rw [Option.bind_eq_some_iff] at h
    obtain ⟨p1, h1, h2⟩ := h
    rw [ih p1 p' h2 (fun x hx => hn x (List.mem_cons_of_mem _ hx))]
    obtain ⟨a, b⟩ := hn e List.mem_cons_self
    cases e with
    | fov i f => exact absurd rfl (a i f)
    | run t => exact absurd rfl (b t)
    | config c =>
      obtain rfl := Option.some.inj h1
      unfold LPlanner.configure
      dsimp only
      split_ifs <;> rfl
    | _ =>
      obtain rfl := Option.some.inj h1
      rfl

/-- With the calls for a frame the planner has the fields of view of its cameras. -/
theorem planner_fovs {s : NodeSt} {frame : List (List (V3 (Flt ℝ)) × FOV ℝ)} {x0 x : LPlanner}
    (h : loopM (lpStep Q) x0 (updateCalls s frame) = some x) : ∀ f ∈ frame, f.2 ∈ x.fovs := by
  unfold updateCalls at h
  rw [loopM_append'] at h
  rw [Option.bind_eq_some_iff] at h
  obtain ⟨y, h1, h2⟩ := h
  rw [loopM_append', Option.bind_eq_some_iff] at h1
  obtain ⟨z, h3, h4⟩ := h1
  rw [loopM_append', Option.bind_eq_some_iff] at h3
  obtain ⟨w, h5, h6⟩ := h3
  rw [loopM_append', Option.bind_eq_some_iff] at h5
  obtain ⟨v, h7, h8⟩ := h5
  have e1 := planner_fovs_kept _ _ _ h2 (by
    intro e he
    simp only [List.mem_cons, List.not_mem_nil, or_false] at he
    rcases he with rfl | rfl <;> exact ⟨fun _ _ h => (by cases h), fun _ h => (by cases h)⟩)
  have e2 := planner_fovs_kept _ _ _ h4 (by
    intro e he
    split_ifs at he
    · simp only [List.mem_cons, List.not_mem_nil, or_false] at he
      rcases he with rfl | rfl <;> exact ⟨fun _ _ h => (by cases h), fun _ h => (by cases h)⟩
    · cases he)
  have e3 := planner_fovs_kept _ _ _ h6 (by
    intro e he
    rw [List.mem_singleton] at he
    subst he
    exact ⟨fun _ _ h => (by cases h), fun _ h => (by cases h)⟩)
  obtain ⟨-, b⟩ := planner_fovs_fold frame 0 v w (Nat.zero_le _) h8
  intro f hf
  obtain ⟨j, hj⟩ := List.mem_iff_getElem?.mp hf
  rw [e1, e2, e3]
  exact List.mem_of_getElem? (b j f hj)

/-- The calls for a frame leave the remembered points. -/
theorem updateCalls_cloud {s : NodeSt} {frame : List (List (V3 (Flt ℝ)) × FOV ℝ)} (es : List LpEvent) : ∀ x0 x : LPlanner,
    loopM (lpStep Q) x0 es = some x → (∀ e ∈ es, ∀ t, e ≠ .run t) → x.cloud = x0.cloud := by
  induction es with
  | nil => intro p p' h _; obtain rfl := Option.some.inj h; rfl
  | cons e es ih =>
    intro p p' h hn
    unfold loopM at h
    rw [Option.bind_eq_some_iff] at h
    obtain ⟨p1, h1, h2⟩ := h
    rw [ih p1 p' h2 (fun x hx => hn x (List.mem_cons_of_mem _ hx))]
    exact cloud_changes h1 (hn e List.mem_cons_self)

theorem updateCalls_no_run (s : NodeSt) (frame : List (List (V3 (Flt ℝ)) × FOV ℝ)) : ∀ e ∈ updateCalls s frame, ∀ t, e ≠ .run t := by
  intro e he t
  unfold updateCalls at he
  simp only [List.mem_append, List.mem_map, List.mem_cons, List.not_mem_nil, or_false] at he
  rcases he with (((rfl | ⟨y, -, rfl⟩) | rfl) | he) | rfl | rfl
  · intro h; cases h
  · intro h; cases h
  · intro h; cases h
  · split_ifs at he
    · simp only [List.mem_cons, List.not_mem_nil, or_false] at he
      rcases he with rfl | rfl <;> (intro h; cases h)
    · cases he
  · intro h; cases h
  · intro h; cases h

theorem lt_mean (l : List ℝ) (m : ℝ) (hne : l ≠ []) (h : ∀ x ∈ l, m < x) : m < l.sum / l.length := by
  have := sum_lt_of_lt (l.map fun x => -x) (-m) (by simpa using hne) (by
    intro x hx
    obtain ⟨y, hy, rfl⟩ := List.mem_map.mp hx
    have := h y hy
    linarith)
  rw [List.length_map] at this
  have e : (l.map fun x => -x).sum = - l.sum := by
    clear this hne h
    induction l with
    | nil => simp
    | cons a l ih => simp [ih]; ring
  rw [e, neg_div] at this
  linarith

theorem sin_row (e : ℕ) : (e = 14 ∨ e = 15 → |Real.sin (((e * 6 + 3 - 90 : ℤ) : ℝ) * degToRad)| < 1 / 19) ∧
    (13 ≤ e → e ≤ 16 → |Real.sin (((e * 6 + 3 - 90 : ℤ) : ℝ) * degToRad)| < 1 / 6) := by
  have hpi := Real.pi_lt_d2
  have hpi0 := Real.pi_pos
  have key : ∀ x : ℝ, |Real.sin (x * degToRad)| ≤ |x| * (Real.pi / 180) := by
    intro x
    refine (Real.abs_sin_le_abs).trans ?_
    rw [abs_mul]
    unfold degToRad
    rw [abs_of_pos (show (0:ℝ) < Real.pi / 180 by positivity)]
  constructor
  · rintro (rfl | rfl)
    · refine (key _).trans_lt ?_
      norm_num
      linarith
    · refine (key _).trans_lt ?_
      norm_num
      linarith
  · intro h1 h2
    refine (key _).trans_lt ?_
    obtain rfl | rfl | rfl | rfl : e = 13 ∨ e = 14 ∨ e = 15 ∨ e = 16 := by omega
    all_goals norm_num; linarith

/-- **C94, an obstacle that was seen is reported (partial).** Let `CP_DIST` be above 0 and a frame show enough points for one area of 2° × 2°: within 6° of
the horizon for sensor ranges up to 19 m, within 12° for sensor ranges up to 6 m. If no remembered point is within the minimum sensor range, the plan started with
that frame publishes one message, and in the bin of that direction, if a camera of the frame has it in view, it shows a distance above the minimum
and below the maximum sensor range. Missing for the full claim: the distance shown need not be that of the nearest point
(`C94_near_obstacle_shown_far_violated`), and a remembered point within the minimum range makes the bin read free
(`C94_close_obstacle_shown_free_violated`). -/
theorem C94_reported_partial (u : Uninit) (l : Launch) (pre : List NodeEvent) (s0 s1 : NodeSt) (frame : List (List (V3 (Flt ℝ)) × FOV ℝ)) (t0 : ℝ)
    (h0 : loopM (nodeStep Q) (nodeInit u l) pre = some s0) (hplan : nodeStep Q s0 (.planStart frame t0) = some s1) (c : LpConfig)
    (hc : newestConfig pre = some c) (hp : 1 ≤ c.min_num_points_per_cell) (hmin : 1 / 1000 ≤ c.min_sensor_range)
    (cp : ℝ) (hcp : (newestPx4 l pre).cp_dist = .fin cp) (hcp0 : 0 < cp) (α β : ℝ)
    (hα : (-6 ≤ α ∧ α < 6 ∧ c.max_sensor_range ≤ 19) ∨ (-12 ≤ α ∧ α < 12 ∧ c.max_sensor_range ≤ 6)) (hmax : 0 ≤ c.max_sensor_range)
    (hseen : c.min_num_points_per_cell ≤ seenIn c (newestPose u pre).1 frame α β)
    (hnear : ∀ a ∈ s0.planner.cloud, c.min_sensor_range < distanceTo (newestPose u pre).1 a.p) :
    ∃ r, s1.scans = s0.scans ++ [r] ∧ r.length = 60 ∧ ∀ i, BinOf i β →
      (∃ x ∈ frame, BinInView x.2 (getYawFromQuaternion (newestPose u pre).2) i) →
      ∃ d, r[i]? = some (some d) ∧ c.min_sensor_range < d ∧ d < c.max_sensor_range := by
  have k := nodeKnows u l pre s0 h0
  have kp : s0.position = (newestPose u pre).1 := congrArg Prod.fst k.pose
  have kq : s0.orientation = (newestPose u pre).2 := congrArg Prod.snd k.pose
  rw [← kp] at hseen hnear
  rw [← kq]
  obtain ⟨x, hx, hr, -, -, -⟩ := plan_calls h0 hplan
  obtain ⟨l1, l2, l3, l4⟩ := updateCalls_lasts s0.calls s0 frame
  have hcf : lastConfig (s0.calls ++ updateCalls s0 frame) = some c := by rw [l1, k.config, hc]
  have hxx : loopM (lpStep Q) s0.planner (updateCalls s0 frame) = some x := by
    rw [loopM_append', k.calls] at hx
    exact hx
  have hcount := seen_count hx frame t0 c hcf l2 l3 α β
  rw [← hcount] at hseen
  have b1 : -48 ≤ α := by rcases hα with h | h <;> linarith [h.1]
  have b2 : α < 48 := by rcases hα with h | h <;> linarith [h.2.1]
  have kx := knows _ x hx
  have kc := kx.config c hcf
  obtain ⟨x1, -⟩ := kx.state _ _ _ l2
  obtain ⟨r0, w1, w2⟩ := (C94_when u l pre s0 s1 _ h0 hplan).2.2.1 frame t0 rfl cp hcp hcp0
  rw [← k.px4] at hcp
  obtain ⟨r, r1, r2, r3⟩ := bin_cases _ t0 x s1.planner hx hr c hcf _ _ _ l2 _ l4 cp hcp hcp0 (by linarith)
  rw [w1] at r1
  obtain rfl := Option.some.inj r1
  refine ⟨r0, w2, r2, fun i hi hv => ?_⟩
  have hview : ∃ f ∈ x.fovs, BinInView f (getYawFromQuaternion s0.orientation) i := by
    obtain ⟨y, hy, hv⟩ := hv
    exact ⟨y.2, planner_fovs hxx y hy, hv⟩
  have hcol := bin_column hi
  -- all points of the processed cloud are in range
  have hcl : x.cloud = s0.planner.cloud := updateCalls_cloud (s := s0) (frame := frame) _ _ _ hxx (updateCalls_no_run s0 frame)
  have hrange : ∀ a ∈ s1.planner.cloud, c.min_sensor_range < distanceTo s0.position a.p := by
    intro a ha
    rcases cloud_members hr a ha with ⟨-, hu⟩ | ⟨o, ho, e, -⟩
    · have := (of_decide_eq_true (List.mem_filter.mp hu).2).1
      have e2 : (x.cloudParams t0).min_range = c.min_sensor_range := kc.p2
      have e1 : (x.cloudParams t0).position = s0.position := x1
      rw [e1, e2] at this
      unfold distanceTo
      rw [distSq_comm, Real.lt_sqrt (by linarith), sq]
      exact this
    · rw [e]
      exact hnear o (by rw [← hcl]; exact ho)
  have hbound : ∀ e m, 13 ≤ e → e ≤ 16 → RowShows s1.planner.cloud s0.position i e m → c.min_sensor_range < m := by
    rintro e m - - ⟨n1, n2, -⟩
    rw [n2]
    have := lt_mean (((s1.planner.cloud.map (·.p)).filter fun y => polarToHistogramIndex (cartesianToPolarHistogram y s0.position) 6 =
      ((((i + 30) % 60 : ℕ) : ℤ), (e : ℤ))).map (distanceTo s0.position)) c.min_sensor_range (by simpa using n1) (by
        intro y hy
        obtain ⟨z, hz, rfl⟩ := List.mem_map.mp hy
        obtain ⟨a, ha, rfl⟩ := List.mem_map.mp (List.mem_filter.mp hz).1
        exact hrange a ha)
    rw [List.length_map] at this
    exact this
  -- the row of the obstacle is shown
  have hgen : generateNewHistogram (Histogram.new 6) s1.planner.cloud s0.position = some s1.planner.histogram := by
    obtain ⟨out, hh, d, st, t, hsp⟩ := run_spec (show x.run Q t0 = some s1.planner from hr)
    rw [hsp.eq, ← x1]
    exact hsp.hist
  have hrow : 13 ≤ coarseRow α ∧ coarseRow α ≤ 16 ∧ ((-6 ≤ α ∧ α < 6) → coarseRow α = 14 ∨ coarseRow α = 15) := by
    unfold coarseRow
    have a1 : (13 : ℤ) ≤ ⌊(α + 90) / 6⌋ := Int.le_floor.mpr (by push_cast; rcases hα with h | h <;> linarith [h.1])
    have a2 : ⌊(α + 90) / 6⌋ < 17 := Int.floor_lt.mpr (by push_cast; rcases hα with h | h <;> linarith [h.2.1])
    refine ⟨by omega, by omega, fun ⟨h1, h2⟩ => ?_⟩
    have a1 : (14 : ℤ) ≤ ⌊(α + 90) / 6⌋ := Int.le_floor.mpr (by push_cast; linarith)
    have a2 : ⌊(α + 90) / 6⌋ < 16 := Int.floor_lt.mpr (by push_cast; linarith)
    omega
  obtain ⟨v1, v2, v3⟩ := hrow
  obtain ⟨c1, c2⟩ := run_cloud hr
  have hseen' : (x.cloudParams t0).min_points ≤ newCount (x.cloudParams t0) x.clouds (fineCell α β) := by
    rw [clouds_known _ x hx]
    show x.min_num_points_per_cell ≤ _
    rw [kc.p5]
    exact hseen
  obtain ⟨q1, q2⟩ := seen_in_histogram (x.cloudParams t0) (by show 1 ≤ x.min_num_points_per_cell; rw [kc.p5]; exact hp) x.cloud x.clouds
    _ c1 (by show _ ≤ x.min_sensor_range; rw [kc.p2]; exact hmin) (by show _ ≤ x.max_sensor_range; rw [kc.p1]; exact hmax)
    α β b1 b2 hseen' s1.planner.histogram (by show generateNewHistogram _ _ x.position = _; rw [x1]; exact hgen)
  have q2 : s1.planner.histogram.dist (coarseRow α) (coarseCol β) < c.max_sensor_range := by
    rw [← kc.p1]
    exact q2
  have q0 : 0 < s1.planner.histogram.dist (coarseRow α) (coarseCol β) := lt_trans (by unfold fltMin; positivity) q1
  rw [hcol] at q0 q2
  have hrep : Reportable s1.planner.histogram (coarseRow α) ((i + 30) % 60) := by
    refine ⟨q0, ?_⟩
    obtain ⟨t1, t2⟩ := sin_row (coarseRow α)
    have hs0 := abs_nonneg (Real.sin ((((coarseRow α : ℕ) * 6 + 3 - 90 : ℤ) : ℝ) * degToRad))
    rcases hα with h | h
    · have := t1 (v3 ⟨h.1, h.2.1⟩)
      nlinarith [h.2.2]
    · have := t2 v1 v2
      nlinarith [h.2.2]
  have hshow := (row_shows hgen i (coarseRow α) (by omega)).1.mp hrep
  rcases (r3 i hi.1).2 hview with ⟨e, m, e1, e2, e3, e4, e5, e6⟩ | ⟨hno, -⟩
  · exact ⟨m, e6, e4, (e5 _ _ v1 v2 hshow).trans_lt q2⟩
  · exfalso
    rcases hno with hno | ⟨e, m, e1, e2, e3, e4⟩
    · exact hno _ _ v1 v2 hshow
    · have := hbound e m e1 e2 e3
      linarith

/-- **C94, no false alarm.** A distance published with a plan, other than the maximum range and a centimetre, is above the minimum sensor range; the bin is in
view of a camera; and there are obstacle points in the direction of the bin, within 12° of the horizon, at most and at least that far away, each measured at the start of this
plan or an earlier one. -/
theorem C94_true_alarm (u : Uninit) (l : Launch) (pre : List NodeEvent) (s0 s1 : NodeSt) (frame : List (List (V3 (Flt ℝ)) × FOV ℝ)) (t0 : ℝ)
    (h0 : loopM (nodeStep Q) (nodeInit u l) pre = some s0) (hplan : nodeStep Q s0 (.planStart frame t0) = some s1) (c : LpConfig)
    (hc : newestConfig pre = some c) (hmin : 0 ≤ c.min_sensor_range)
    (cp : ℝ) (hcp : (newestPx4 l pre).cp_dist = .fin cp) (hcp0 : 0 < cp) (r : List (Option ℝ)) (hr : s1.scans = s0.scans ++ [r])
    (i : ℕ) (hi : i < 60) (d : ℝ) (hd : r[i]? = some (some d)) (hfree : d ≠ c.max_sensor_range + 1 / 100) :
    c.min_sensor_range < d ∧ ∃ near ∈ s1.planner.cloud, ∃ far ∈ s1.planner.cloud,
      distanceTo (newestPose u pre).1 near.p ≤ d ∧ d ≤ distanceTo (newestPose u pre).1 far.p ∧
      ∀ a, a = near ∨ a = far → (∃ e : ℕ, 13 ≤ e ∧ e ≤ 16 ∧
        polarToHistogramIndex (cartesianToPolarHistogram a.p (newestPose u pre).1) 6 = ((((i + 30) % 60 : ℕ) : ℤ), (e : ℤ))) ∧
        ∃ t, MeasuredAt s1.calls a.p t ∧ a.age = t0 - t := by
  have k := nodeKnows u l pre s0 h0
  have kp : s0.position = (newestPose u pre).1 := congrArg Prod.fst k.pose
  rw [← kp]
  obtain ⟨x, hx, hrun, -, -, hcalls⟩ := plan_calls h0 hplan
  obtain ⟨l1, l2, l3, l4⟩ := updateCalls_lasts s0.calls s0 frame
  have hcf : lastConfig (s0.calls ++ updateCalls s0 frame) = some c := by rw [l1, k.config, hc]
  obtain ⟨r0, w1, w2⟩ := (C94_when u l pre s0 s1 _ h0 hplan).2.2.1 frame t0 rfl cp hcp hcp0
  rw [w2] at hr
  obtain rfl := (List.cons.inj (List.append_cancel_left hr)).1
  rw [← k.px4] at hcp
  obtain ⟨r', r1, r2, r3⟩ := bin_cases _ t0 x s1.planner hx hrun c hcf _ _ _ l2 _ l4 cp hcp hcp0 hmin
  rw [w1] at r1
  obtain rfl := Option.some.inj r1
  by_cases hv : ∃ f ∈ x.fovs, BinInView f (getYawFromQuaternion s0.orientation) i
  · rcases (r3 i hi).2 hv with ⟨e, m, e1, e2, e3, e4, -, e6⟩ | ⟨-, hno⟩
    · rw [hd] at e6
      obtain rfl := Option.some.inj (Option.some.inj e6)
      refine ⟨e4, ?_⟩
      obtain ⟨n1, n2, -⟩ := e3
      have hcall : loopM (lpStep Q) lpInit s1.calls = some s1.planner := by
        rw [hcalls, ← List.append_assoc, loopM_append', hx]
        show (lpStep Q x (.run t0)).bind (fun y => some y) = _
        rw [hrun]
        rfl
      have hlast : lastRun s1.calls = t0 := by
        rw [hcalls, ← List.append_assoc]
        exact lastRun_run _ _
      have hprov : ∀ a ∈ s1.planner.cloud, ∃ t, MeasuredAt s1.calls a.p t ∧ a.age = t0 - t := by
        intro a ha
        obtain ⟨t, t1, t2⟩ := C88_provenance _ _ hcall a ha
        exact ⟨t, t1, by rw [t2, hlast]⟩
      -- points of the row
      obtain ⟨pts, hpts⟩ : ∃ pts, pts = (s1.planner.cloud.map (·.p)).filter fun y =>
        polarToHistogramIndex (cartesianToPolarHistogram y s0.position) 6 = ((((i + 30) % 60 : ℕ) : ℤ), (e : ℤ)) := ⟨_, rfl⟩
      rw [← hpts] at n1 n2
      have hne : pts.map (distanceTo s0.position) ≠ [] := by simpa using n1
      have n2 : d = (pts.map (distanceTo s0.position)).sum / ((pts.map (distanceTo s0.position)).length : ℝ) := by rw [List.length_map]; exact n2
      have near : ∃ y ∈ pts, distanceTo s0.position y ≤ d := by
        by_contra hno
        push Not at hno
        have := lt_mean _ d hne (by
          intro z hz
          obtain ⟨y, hy, rfl⟩ := List.mem_map.mp hz
          exact hno y hy)
        linarith
      have far : ∃ y ∈ pts, d ≤ distanceTo s0.position y := by
        by_contra hno
        push Not at hno
        have := sum_lt_of_lt _ d hne (by
          intro z hz
          obtain ⟨y, hy, rfl⟩ := List.mem_map.mp hz
          exact hno y hy)
        linarith
      have up : ∀ y ∈ pts, ∃ a ∈ s1.planner.cloud, a.p = y ∧
          polarToHistogramIndex (cartesianToPolarHistogram a.p s0.position) 6 = ((((i + 30) % 60 : ℕ) : ℤ), (e : ℤ)) := by
        intro y hy
        rw [hpts, List.mem_filter] at hy
        obtain ⟨a, ha, rfl⟩ := List.mem_map.mp hy.1
        exact ⟨a, ha, rfl, of_decide_eq_true hy.2⟩
      obtain ⟨y1, y2, y3⟩ := near
      obtain ⟨z1, z2, z3⟩ := far
      obtain ⟨a1, a2, a3, a4⟩ := up y1 y2
      obtain ⟨b1, b2, b3, b4⟩ := up z1 z2
      refine ⟨a1, a2, b1, b2, by rw [a3]; exact y3, by rw [b3]; exact z3, ?_⟩
      rintro a (rfl | rfl)
      · exact ⟨⟨e, e1, e2, a4⟩, hprov _ a2⟩
      · exact ⟨⟨e, e1, e2, b4⟩, hprov _ b2⟩
    · rw [hd] at hno
      exact absurd (Option.some.inj (Option.some.inj hno)) hfree
  · have := (r3 i hi).1 hv
    rw [hd] at this
    cases Option.some.inj this


/-! ## Non-vacuity and witnesses -/

theorem fovs_one {s : NodeSt} {cl : List (V3 (Flt ℝ))} {f : FOV ℝ} {x0 x : LPlanner}
    (h : loopM (lpStep Q) x0 (updateCalls s [(cl, f)]) = some x) (h0 : x0.fovs.length ≤ 1) : x.fovs = [f] := by
  unfold updateCalls at h
  rw [loopM_append', Option.bind_eq_some_iff] at h
  obtain ⟨y, h1, h2⟩ := h
  rw [loopM_append', Option.bind_eq_some_iff] at h1
  obtain ⟨z, h3, h4⟩ := h1
  rw [loopM_append', Option.bind_eq_some_iff] at h3
  obtain ⟨w, h5, h6⟩ := h3
  rw [loopM_append', Option.bind_eq_some_iff] at h5
  obtain ⟨v, h7, h8⟩ := h5
  have e1 := planner_fovs_kept _ _ _ h2 (by
    intro e he
    simp only [List.mem_cons, List.not_mem_nil, or_false] at he
    rcases he with rfl | rfl <;> exact ⟨fun _ _ h => (by cases h), fun _ h => (by cases h)⟩)
  have e2 := planner_fovs_kept _ _ _ h4 (by
    intro e he
    split_ifs at he
    · simp only [List.mem_cons, List.not_mem_nil, or_false] at he
      rcases he with rfl | rfl <;> exact ⟨fun _ _ h => (by cases h), fun _ h => (by cases h)⟩
    · cases he)
  have e3 := planner_fovs_kept _ _ _ h6 (by
    intro e he
    rw [List.mem_singleton] at he
    subst he
    exact ⟨fun _ _ h => (by cases h), fun _ h => (by cases h)⟩)
  have e4 := planner_fovs_kept _ _ _ h7 (by
    intro e he
    rw [List.mem_singleton] at he
    subst he
    exact ⟨fun _ _ h => (by cases h), fun _ h => (by cases h)⟩)
  rw [e1, e2, e3]
  have h8 : some (v.setFOV 0 f) = some w := h8
  obtain rfl := Option.some.inj h8
  unfold LPlanner.setFOV
  dsimp only
  rw [e4]
  match hh : x0.fovs, h0 with
  | [], _ => simp
  | [a], _ => simp

/-- Configured, in a mission, at 3 m height, with a goal 20 m to the east. -/
theorem exampleReady (Q : PriorityQueue (Candidate ℝ) Candidate.lt) :
    ∃ s0, loopM (nodeStep Q) (nodeInit exampleUninit exampleLaunch) exampleNodeStart = some s0 ∧
      s0.planner.cloud = [] ∧ s0.planner.fovs = [] ∧ s0.cmd = none ∧ plannedGoal s0 = ⟨20, 0, 3⟩ ∧ s0.goals.goal.val = ⟨20, 0, 3⟩ ∧
      ∀ frame t, frame ≠ [] → ∃ s1, nodeStep Q s0 (.planStart frame t) = some s1 := by
  have h : ∃ s0, loopM (nodeStep Q) (nodeInit exampleUninit exampleLaunch) exampleNodeStart = some s0 ∧ s0.planning = false ∧ s0.cmd = none ∧
      s0.goals = goalInit exampleUninit exampleLaunch ∧ s0.planner.cloud = (lpInit.applyGoal.configure exampleSeenConfig).cloud ∧
      s0.planner.fovs = (lpInit.applyGoal.configure exampleSeenConfig).fovs := ⟨_, rfl, rfl, rfl, rfl, rfl, rfl⟩
  obtain ⟨s0, h0, f1, f2, f3, f4, f5⟩ := h
  have hg : plannedGoal s0 = ⟨20, 0, 3⟩ := by
    unfold plannedGoal
    rw [f3]
    rfl
  have hfv : (lpInit.applyGoal.configure exampleSeenConfig).fovs = lpInit.fovs := by
    unfold LPlanner.configure
    dsimp only
    split_ifs <;> rfl
  have n20 : ((⟨20, 0, 3⟩ : V3 ℝ).minus ⟨0, 0, 3⟩).norm = 20 := by
    unfold V3.norm V3.dot V3.minus
    norm_num
    rw [show (400 : ℝ) = 20 ^ 2 by norm_num, Real.sqrt_sq (by norm_num)]
  refine ⟨s0, h0, by rw [f4, configure_cloud]; rfl, by rw [f5, hfv]; rfl, f2, hg, by rw [f3]; rfl, fun frame t hf => ?_⟩
  exact C93_plan_defined _ _ _ s0 frame t h0 f1 hf exampleSeenConfig rfl (by norm_num [exampleSeenConfig])
    (by norm_num [exampleSeenConfig]) (by norm_num [exampleSeenConfig]) (by norm_num [exampleSeenConfig])
    (by norm_num [exampleSeenConfig]) (by rw [hg]; intro e; have := congrArg V3.x e; change (20 : ℝ) = 0 at this; norm_num at this)
    (by rw [hg]; show _ ≤ ((⟨20, 0, 3⟩ : V3 ℝ).minus ⟨0, 0, 3⟩).norm; rw [n20]; norm_num [exampleSeenConfig])

theorem yaw_identity : getYawFromQuaternion (⟨1, 0, 0, 0⟩ : Quat ℝ) = 0 := by
  unfold getYawFromQuaternion atan2
  norm_num
  left
  exact Complex.arg_one

theorem bin15_view (v : ℝ) (hv : 6 ≤ v) : BinInView ⟨0, 0, 60, v⟩ (getYawFromQuaternion (⟨1, 0, 0, 0⟩ : Quat ℝ)) 15 := by
  left
  rw [yaw_identity, show (90 - 6 * ((15 : ℕ) : ℝ) - 0) = 0 by norm_num,
    show wrap180 (0 : ℝ) = 0 from ((C01_wrap180_canonical (0 : ℝ)).2 _ (by norm_num) (by norm_num) ⟨0, by simp⟩).symm]
  rw [C11_fov_membership_partial _ _ (by norm_num) (by norm_num) (by norm_num) (by norm_num) (by norm_num)]
  refine ⟨⟨0, by norm_num, 0, by norm_num⟩, ?_⟩
  rw [abs_le]
  constructor <;> (dsimp only; linarith)

theorem pointAt_distance (p : V3 ℝ) (r α β : ℝ) (hr : 0 ≤ r) : distSq p (pointAt p r α β) = r * r ∧ distanceTo p (pointAt p r α β) = r := by
  have h : distSq p (pointAt p r α β) = r * r := by
    unfold distSq pointAt
    dsimp only
    have h1 := Real.sin_sq_add_cos_sq (α * degToRad)
    have h2 := Real.sin_sq_add_cos_sq (β * degToRad)
    linear_combination (r ^ 2 * Real.cos (α * degToRad) ^ 2) * h2 + r ^ 2 * h1
  refine ⟨h, ?_⟩
  unfold distanceTo
  rw [distSq_comm, h, Real.sqrt_mul_self hr]

theorem coarse_cell (p : V3 ℝ) (r α β : ℝ) (hr : 0 < r) (h1 : -48 ≤ α) (h2 : α < 48) :
    polarToHistogramIndex (cartesianToPolarHistogram (pointAt p r α β) p) 6 = ((coarseCol β : ℤ), (coarseRow α : ℤ)) := by
  have e := C24_cell_of_direction ⟨[], 0, 0, p, 0, 0, 0, 0, 0⟩ r α β hr (by linarith) (by linarith)
  have e : polarToHistogramIndex (cartesianToPolarHistogram (pointAt p r α β) p) 2 = fineCell α β := e
  rw [cells_nest, e, (coarse_bounds α β h1 h2).2.2.2]

theorem wrap_small (x : ℝ) (h1 : -180 ≤ x) (h2 : x < 180) : wrap180 x = x := ((C01_wrap180_canonical x).2 _ h1 h2 ⟨0, by simp⟩).symm

theorem coarseRow_eq (α : ℝ) (n : ℕ) (h1 : 6 * (n : ℝ) - 90 ≤ α) (h2 : α < 6 * (n : ℝ) - 84) : coarseRow α = n := by
  unfold coarseRow
  rw [show ⌊(α + 90) / 6⌋ = ((n : ℕ) : ℤ) by rw [Int.floor_eq_iff]; push_cast; constructor <;> linarith, Int.toNat_natCast]

/-- The hypotheses of `C94_reported_partial`, `C94_true_alarm` and `C94_bins` are met: one point 5 m to the east, 0° above the horizon; bin 15. -/
example (Q : PriorityQueue (Candidate ℝ) Candidate.lt) : ∃ s0 s1 r d, loopM (nodeStep Q) (nodeInit exampleUninit exampleLaunch) exampleNodeStart = some s0 ∧
    nodeStep Q s0 (.planStart exampleFrame 1) = some s1 ∧ s1.scans = s0.scans ++ [r] ∧ r[15]? = some (some d) ∧ 1 / 5 < d ∧ d < 15 ∧
    ∃ near ∈ s1.planner.cloud, distanceTo ⟨0, 0, 3⟩ near.p ≤ d := by
  obtain ⟨s0, h0, f1, f2, -, -, -, f3⟩ := exampleReady Q
  obtain ⟨s1, h1⟩ := f3 exampleFrame 1 (by simp [exampleFrame])
  have hb : BinOf 15 90 := ⟨by norm_num, 0, by norm_num, by norm_num⟩
  obtain ⟨r, r1, r2, r3⟩ := C94_reported_partial _ _ _ s0 s1 exampleFrame 1 h0 h1 exampleSeenConfig rfl (by norm_num [exampleSeenConfig])
    (by norm_num [exampleSeenConfig]) 4 rfl (by norm_num) 0 90 (Or.inl (by norm_num [exampleSeenConfig])) (by norm_num [exampleSeenConfig])
    (exampleFlies_seen 1) (by rw [f1]; intro a ha; cases ha)
  obtain ⟨d, d1, d2, d3⟩ := r3 15 hb ⟨_, List.mem_cons_self, bin15_view 45 (by norm_num)⟩
  have d2 : 1 / 5 < d := d2
  have d3 : d < 15 := d3
  obtain ⟨-, near, n1, far, n2, n3, -⟩ := C94_true_alarm _ _ _ s0 s1 exampleFrame 1 h0 h1 exampleSeenConfig rfl (by norm_num [exampleSeenConfig]) 4 rfl (by norm_num)
    r r1 15 (by norm_num) d d1 (by show d ≠ 15 + 1 / 100; intro e; linarith)
  exact ⟨s0, s1, r, d, h0, h1, r1, d1, d2, d3, near, n1, n3⟩

/-- **C94, the distance shown is not that of the nearest obstacle (found).** With one point per area needed, the cameras show a point 1 m away, 1° above the
horizon and 91° from north, and another 13 m away at 93°: the bin of both shows 7 m. -/
theorem C94_near_obstacle_shown_far_violated (Q : PriorityQueue (Candidate ℝ) Candidate.lt) :
    ∃ (u : Uninit) (l : Launch) (pre : List NodeEvent) (s0 s1 : NodeSt) (frame : List (List (V3 (Flt ℝ)) × FOV ℝ)) (c : LpConfig) (p near : V3 ℝ) (r : List (Option ℝ)),
      loopM (nodeStep Q) (nodeInit u l) pre = some s0 ∧ nodeStep Q s0 (.planStart frame 1) = some s1 ∧ newestConfig pre = some c ∧
      c.min_num_points_per_cell = 1 ∧ c.min_sensor_range = 1 / 5 ∧ c.max_sensor_range = 15 ∧ (newestPose u pre).1 = p ∧
      near.toFlt ∈ (frame.map (·.1)).flatten ∧ near = pointAt p 1 1 91 ∧ distanceTo p near = 1 ∧
      BinOf 15 91 ∧ (∃ x ∈ frame, BinInView x.2 (getYawFromQuaternion (newestPose u pre).2) 15) ∧
      s1.scans = s0.scans ++ [r] ∧ r[15]? = some (some 7) := by
  obtain ⟨s0, h0, f1, f2, -, -, -, f3⟩ := exampleReady Q
  obtain ⟨p, hp⟩ : ∃ p : V3 ℝ, p = ⟨0, 0, 3⟩ := ⟨_, rfl⟩
  obtain ⟨A, hA⟩ : ∃ A, A = pointAt p 1 1 91 := ⟨_, rfl⟩
  obtain ⟨B, hB⟩ : ∃ B, B = pointAt p 13 1 93 := ⟨_, rfl⟩
  obtain ⟨frame, hf⟩ : ∃ frame : List (List (V3 (Flt ℝ)) × FOV ℝ), frame = [([A.toFlt, B.toFlt], ⟨0, 0, 60, 45⟩)] := ⟨_, rfl⟩
  obtain ⟨s1, h1⟩ := f3 frame 1 (by simp [hf])
  have k := nodeKnows _ _ _ s0 h0
  have kp : s0.position = p := by rw [hp]; exact congrArg Prod.fst k.pose
  obtain ⟨x, hx, hr, -, -, -⟩ := plan_calls h0 h1
  obtain ⟨l1, l2, l3, l4⟩ := updateCalls_lasts s0.calls s0 frame
  have hcf : lastConfig (s0.calls ++ updateCalls s0 frame) = some exampleSeenConfig := by rw [l1, k.config]; rfl
  have hxx : loopM (lpStep Q) s0.planner (updateCalls s0 frame) = some x := by
    rw [loopM_append', k.calls] at hx
    exact hx
  have kx := knows _ x hx
  have kc := kx.config _ hcf
  obtain ⟨x1, -⟩ := kx.state _ _ _ l2
  rw [kp] at x1
  have hcl : x.cloud = [] := by
    rw [updateCalls_cloud (s := s0) (frame := frame) _ _ _ hxx (updateCalls_no_run s0 frame), f1]
  obtain ⟨c1, c2⟩ := run_cloud hr
  have e1 : (x.cloudParams 1).position = p := x1
  have e2 : (x.cloudParams 1).min_range = 1 / 5 := kc.p2
  have e3 : (x.cloudParams 1).max_range = 15 := kc.p1
  have e4 : (x.cloudParams 1).min_points = 1 := kc.p5
  have dA := pointAt_distance p 1 1 91 (by norm_num)
  have dB := pointAt_distance p 13 1 93 (by norm_num)
  rw [← hA] at dA
  rw [← hB] at dB
  have hu : usableNew (x.cloudParams 1) x.clouds = [A, B] := by
    rw [clouds_known _ x hx, l3]
    unfold usableNew
    rw [e1, e2, e3, hf]
    simp only [List.map_cons, List.map_nil, List.flatten_cons, List.flatten_nil, List.append_nil, List.filterMap_cons, finite?_toFlt, List.filterMap_nil]
    rw [List.filter_cons_of_pos (by rw [dA.1]; norm_num), List.filter_cons_of_pos (by rw [dB.1]; norm_num), List.filter_nil]
  have cA : cellOf (x.cloudParams 1) A = (135, 45) := by
    have := C24_cell_of_direction (x.cloudParams 1) 1 1 91 (by norm_num) (by norm_num) (by norm_num)
    rw [e1, ← hA, wrap_small 91 (by norm_num) (by norm_num)] at this
    rw [this]
    norm_num
  have cB : cellOf (x.cloudParams 1) B = (136, 45) := by
    have := C24_cell_of_direction (x.cloudParams 1) 13 1 93 (by norm_num) (by norm_num) (by norm_num)
    rw [e1, ← hB, wrap_small 93 (by norm_num) (by norm_num)] at this
    rw [this]
    norm_num
  have hcloud : s1.planner.cloud = [⟨A, 0⟩, ⟨B, 0⟩] := by
    rw [C24_exact _ _ _ c2, hu, hcl] at c1
    have pk : pick (Completes (x.cloudParams 1)) [A, B] = [A, B] := by
      have p0 := pick_snoc (Completes (x.cloudParams 1)) [] A
      rw [if_pos (by unfold Completes; rw [e4]; rfl)] at p0
      have p1 := pick_snoc (Completes (x.cloudParams 1)) [A] B
      rw [if_pos (by
        unfold Completes
        rw [e4, List.filter_cons_of_neg (by rw [cA, cB]; decide)]
        rfl)] at p1
      rw [show [A, B] = [A] ++ [B] from rfl, p1, show [A] = [] ++ [A] from rfl, p0]
      rfl
    rw [pk] at c1
    exact (Option.some.inj c1).symm
  have hcp : (newestPx4 exampleLaunch exampleNodeStart).cp_dist = .fin 4 := rfl
  obtain ⟨r0, w1, w2⟩ := (C94_when _ _ _ s0 s1 _ h0 h1).2.2.1 frame 1 rfl 4 hcp (by norm_num)
  rw [← k.px4] at hcp
  obtain ⟨r, r1, r2, r3⟩ := C94_bins _ 1 x s1.planner hx hr _ hcf _ _ _ l2 _ l4 4 hcp (by norm_num)
  rw [w1] at r1
  obtain rfl := Option.some.inj r1
  have kq : s0.orientation = ⟨1, 0, 0, 0⟩ := congrArg Prod.snd k.pose
  have hview : ∃ f ∈ x.fovs, BinInView f (getYawFromQuaternion s0.orientation) 15 :=
    ⟨⟨0, 0, 60, 45⟩, planner_fovs hxx ([A.toFlt, B.toFlt], ⟨0, 0, 60, 45⟩) (by rw [hf]; exact List.mem_cons_self),
      by rw [kq]; exact bin15_view 45 (by norm_num)⟩
  have b1 : BinOf 15 91 := ⟨by norm_num, 0, by norm_num, by norm_num⟩
  have b2 : BinOf 15 93 := ⟨by norm_num, 0, by norm_num, by norm_num⟩
  have row : coarseRow 1 = 15 := coarseRow_eq 1 15 (by norm_num) (by norm_num)
  have gA : polarToHistogramIndex (cartesianToPolarHistogram A p) 6 = (((45 : ℕ) : ℤ), ((15 : ℕ) : ℤ)) := by
    rw [hA, coarse_cell p 1 1 91 (by norm_num) (by norm_num) (by norm_num), bin_column b1, row]
  have gB : polarToHistogramIndex (cartesianToPolarHistogram B p) 6 = (((45 : ℕ) : ℤ), ((15 : ℕ) : ℤ)) := by
    rw [hB, coarse_cell p 13 1 93 (by norm_num) (by norm_num) (by norm_num), bin_column b2, row]
  have hrows : ∀ e m, RowShows s1.planner.cloud s0.position 15 e m → m = 7 := by
    rintro e m ⟨n1, n2, -⟩
    rw [hcloud, kp] at n1 n2
    simp only [List.map_cons, List.map_nil] at n1 n2
    by_cases he : e = 15
    · subst he
      rw [List.filter_cons_of_pos (by rw [gA]; decide), List.filter_cons_of_pos (by rw [gB]; decide), List.filter_nil] at n2
      rw [n2]
      simp only [List.map_cons, List.map_nil, List.sum_cons, List.sum_nil, dA.2, dB.2]
      norm_num
    · exfalso
      refine n1 ?_
      have : ¬ ((15 : ℕ) : ℤ) = (e : ℤ) := by omega
      rw [List.filter_cons_of_neg (by rw [gA]; simp; omega), List.filter_cons_of_neg (by rw [gB]; simp; omega), List.filter_nil]
  have h15 : RowShows s1.planner.cloud s0.position 15 15 7 := by
    unfold RowShows
    dsimp only
    rw [hcloud, kp]
    simp only [List.map_cons, List.map_nil]
    rw [List.filter_cons_of_pos (by rw [gA]; decide), List.filter_cons_of_pos (by rw [gB]; decide), List.filter_nil]
    refine ⟨by simp, ?_, by norm_num, ?_⟩
    · simp only [List.map_cons, List.map_nil, List.sum_cons, List.sum_nil, dA.2, dB.2]
      norm_num
    · have := (sin_row 15).1 (Or.inr rfl)
      push_cast at this ⊢
      linarith
  have hout := ((r3 15 (by norm_num)).2 hview).1 15 7 (by norm_num) (by norm_num) h15 (by norm_num [exampleSeenConfig])
    (fun e' m' _ _ h => (hrows e' m' h).ge)
  refine ⟨exampleUninit, exampleLaunch, exampleNodeStart, s0, s1, frame, exampleSeenConfig, p, A, r0, h0, h1, rfl, rfl, rfl, rfl, hp.symm, ?_, hA, dA.2, b1, ?_, w2, hout⟩
  · rw [hf]
    simp
  · exact ⟨_, by rw [hf]; exact List.mem_cons_self, bin15_view 45 (by norm_num)⟩

/-- One usable point: the cloud after the plan is that point. -/
theorem exampleOne_cloud {x x' : LPlanner} {t : ℝ} (hr : lpStep Q x (.run t) = some x') (A : V3 ℝ) (hcl : x.cloud = [])
    (hu : usableNew (x.cloudParams t) x.clouds = [A]) (hm : x.min_num_points_per_cell = 1) : x'.cloud = [⟨A, 0⟩] := by
  obtain ⟨c1, c2⟩ := run_cloud hr
  rw [C24_exact _ _ _ c2, hu, hcl] at c1
  have p0 := pick_snoc (Completes (x.cloudParams t)) [] A
  rw [if_pos (by unfold Completes; rw [show (x.cloudParams t).min_points = 1 from hm]; rfl)] at p0
  have p0 : pick (Completes (x.cloudParams t)) [A] = [A] := p0
  rw [p0] at c1
  exact (Option.some.inj c1).symm

/-- **C94, a near obstacle can read as free (found).** The cameras showed a point 25 cm away, 8° above the horizon. The vehicle moved 10 cm towards it, the next frame
does not cover that elevation, so the point is remembered, 15 cm away. Because that is within the minimum sensor range, its bin reads as free up to the
maximum range. -/
theorem C94_close_obstacle_shown_free_violated (Q : PriorityQueue (Candidate ℝ) Candidate.lt) :
    ∃ (u : Uninit) (l : Launch) (pre : List NodeEvent) (s0 s1 : NodeSt) (frame : List (List (V3 (Flt ℝ)) × FOV ℝ)) (c : LpConfig) (p near : V3 ℝ) (r : List (Option ℝ)),
      loopM (nodeStep Q) (nodeInit u l) pre = some s0 ∧ nodeStep Q s0 (.planStart frame 2) = some s1 ∧ newestConfig pre = some c ∧
      c.min_num_points_per_cell = 1 ∧ c.min_sensor_range = 1 / 5 ∧ c.max_sensor_range = 15 ∧ (newestPose u pre).1 = p ∧
      (∃ old, NodeEvent.planStart old 1 ∈ pre ∧ near.toFlt ∈ (old.map (·.1)).flatten) ∧
      near = pointAt p (3 / 20) 8 90 ∧ distanceTo p near = 3 / 20 ∧ near ∈ s1.planner.cloud.map (·.p) ∧
      BinOf 15 90 ∧ (∃ x ∈ frame, BinInView x.2 (getYawFromQuaternion (newestPose u pre).2) 15) ∧
      s1.scans = s0.scans ++ [r] ∧ r[15]? = some (some (c.max_sensor_range + 1 / 100)) := by
  obtain ⟨s0, h0, f1, f2, f4, f5, f6, f3⟩ := exampleReady Q
  obtain ⟨p, hp⟩ : ∃ p : V3 ℝ, p = ⟨0, 0, 3⟩ := ⟨_, rfl⟩
  obtain ⟨A, hA⟩ : ∃ A, A = pointAt p (1 / 4) 8 90 := ⟨_, rfl⟩
  obtain ⟨p2, hp2⟩ : ∃ p2, p2 = pointAt p (1 / 10) 8 90 := ⟨_, rfl⟩
  have hA2 : A = pointAt p2 (3 / 20) 8 90 := by
    rw [hA, hp2]
    unfold pointAt
    dsimp only
    congr 1 <;> ring
  obtain ⟨frame, hf⟩ : ∃ frame : List (List (V3 (Flt ℝ)) × FOV ℝ), frame = [([A.toFlt], ⟨0, 0, 60, 45⟩)] := ⟨_, rfl⟩
  obtain ⟨frame2, hf2⟩ : ∃ frame : List (List (V3 (Flt ℝ)) × FOV ℝ), frame = [([], ⟨0, 0, 60, 10⟩)] := ⟨_, rfl⟩
  obtain ⟨s1, h1⟩ := f3 frame 1 (by simp [hf])
  -- the first plan
  have k := nodeKnows _ _ _ s0 h0
  have kp : s0.position = p := by rw [hp]; exact congrArg Prod.fst k.pose
  obtain ⟨x, hx, hr, -, -, -⟩ := plan_calls h0 h1
  obtain ⟨l1, l2, l3, l4⟩ := updateCalls_lasts s0.calls s0 frame
  have hcf : lastConfig (s0.calls ++ updateCalls s0 frame) = some exampleSeenConfig := by rw [l1, k.config]; rfl
  have hxx : loopM (lpStep Q) s0.planner (updateCalls s0 frame) = some x := by
    rw [loopM_append', k.calls] at hx
    exact hx
  have kx := knows _ x hx
  have kc := kx.config _ hcf
  obtain ⟨x1, -⟩ := kx.state _ _ _ l2
  rw [kp] at x1
  have hcl : x.cloud = [] := by
    rw [updateCalls_cloud (s := s0) (frame := frame) _ _ _ hxx (updateCalls_no_run s0 frame), f1]
  have dA := pointAt_distance p (1 / 4) 8 90 (by norm_num)
  rw [← hA] at dA
  have hu : usableNew (x.cloudParams 1) x.clouds = [A] := by
    rw [clouds_known _ x hx, l3]
    unfold usableNew
    rw [show (x.cloudParams 1).position = p from x1, show (x.cloudParams 1).min_range = 1 / 5 from kc.p2,
      show (x.cloudParams 1).max_range = 15 from kc.p1, hf]
    simp only [List.map_cons, List.map_nil, List.flatten_cons, List.flatten_nil, List.append_nil, List.filterMap_cons, finite?_toFlt, List.filterMap_nil]
    rw [List.filter_cons_of_pos (by rw [dA.1]; norm_num), List.filter_nil]
  have hcl1 : s1.planner.cloud = [⟨A, 0⟩] := exampleOne_cloud hr A hcl hu kc.p5
  have hfv1 : s1.planner.fovs.length ≤ 1 := by
    obtain ⟨out, hh, d, st, t, hsp⟩ := run_spec (show x.run Q 1 = some s1.planner from hr)
    have : s1.planner.fovs = x.fovs := by rw [hsp.eq]
    rw [this, hf] at *
    rw [fovs_one hxx (by rw [f2]; simp)]
    simp
  have hg1 : s1.planning = true ∧ s1.cmd = none ∧ s1.goals = { s0.goals with new_goal := false } := by
    have h1' := h1
    unfold nodeStep at h1'
    dsimp only at h1'
    split_ifs at h1'
    rw [Option.map_eq_some_iff] at h1'
    obtain ⟨pl, -, rfl⟩ := h1'
    exact ⟨rfl, f4, rfl⟩
  obtain ⟨g1, g2, g3⟩ := hg1
  -- handing over, and the new pose
  obtain ⟨s2, hs2⟩ : ∃ s2, s2 = { s1 with planning := false, last_wp_time := 1, gen := (s1.gen.1, { s1.gen.2 with planner := infoOf s1.planner }) } := ⟨_, rfl⟩
  have h2 : nodeStep Q s1 (.planEnd 1) = some s2 := by
    show (if s1.planning = true ∧ s1.cmd = none then some _ else none) = some s2
    rw [if_pos ⟨g1, g2⟩, hs2]
  obtain ⟨s3, hs3⟩ : ∃ s3, s3 = { s2 with position := p2, orientation := ⟨1, 0, 0, 0⟩, position_received := true } := ⟨_, rfl⟩
  have h3 : nodeStep Q s2 (.pose p2 ⟨1, 0, 0, 0⟩) = some s3 := by rw [hs3]; rfl
  obtain ⟨pre, hpre⟩ : ∃ pre : List NodeEvent, pre = exampleNodeStart ++ [.planStart frame 1, .planEnd 1, .pose p2 ⟨1, 0, 0, 0⟩] := ⟨_, rfl⟩
  have h4 : loopM (nodeStep Q) (nodeInit exampleUninit exampleLaunch) pre = some s3 := by
    rw [hpre, loopM_append', h0]
    show (nodeStep Q s0 (.planStart frame 1)).bind (fun y => (nodeStep Q y (.planEnd 1)).bind fun z => (nodeStep Q z (.pose p2 ⟨1, 0, 0, 0⟩)).bind some) = _
    rw [h1]
    show (nodeStep Q s1 (.planEnd 1)).bind _ = _
    rw [h2]
    show (nodeStep Q s2 (.pose p2 ⟨1, 0, 0, 0⟩)).bind _ = _
    rw [h3]
    rfl
  have q1 : s3.planner = s1.planner := by rw [hs3, hs2]
  have q2 : s3.planning = false := by rw [hs3, hs2]
  have q3 : plannedGoal s3 = ⟨20, 0, 3⟩ := by
    have e1 : s3.planner = s1.planner := q1
    have e2 : s3.goals = s1.goals := by rw [hs3, hs2]
    have e3 : x.goal = plannedGoal s0 := by
      have := updateCalls_goal s0.calls s0 frame
      rw [kx.goal, this, ← (knows _ _ k.calls).goal]
      rfl
    unfold plannedGoal
    rw [e2, g3, e1]
    show s1.planner.goal = _
    obtain ⟨out, hh, d, st, t, hsp⟩ := run_spec (show x.run Q 1 = some s1.planner from hr)
    have : s1.planner.goal = x.goal := by rw [hsp.eq]
    rw [this, e3, f5]
  have hc3 : newestConfig pre = some exampleSeenConfig := by rw [hpre]; rfl
  have hpose3 : newestPose exampleUninit pre = (p2, ⟨1, 0, 0, 0⟩) := by rw [hpre]; rfl
  have hx2 : p2.x ≤ 1 / 10 := by
    rw [hp2, hp]
    unfold pointAt
    dsimp only
    have a := Real.cos_le_one (8 * degToRad)
    have b : Real.sin (90 * degToRad) = 1 := by
      unfold degToRad
      rw [show (90 : ℝ) * (Real.pi / 180) = Real.pi / 2 by ring, Real.sin_pi_div_two]
    rw [b]
    linarith
  have hnorm : 15 ≤ ((⟨20, 0, 3⟩ : V3 ℝ).minus p2).norm := by
    unfold V3.norm V3.dot V3.minus
    apply Real.le_sqrt_of_sq_le
    dsimp only
    nlinarith [sq_nonneg (0 - p2.y), sq_nonneg (3 - p2.z)]
  obtain ⟨s4, h5⟩ := C93_plan_defined _ _ _ s3 frame2 2 h4 q2 (by simp [hf2]) exampleSeenConfig hc3 (by norm_num [exampleSeenConfig])
    (by norm_num [exampleSeenConfig]) (by norm_num [exampleSeenConfig]) (by norm_num [exampleSeenConfig])
    (by norm_num [exampleSeenConfig]) (by rw [q3, hpose3]; intro e; have := congrArg V3.x e; dsimp only at this; linarith)
    (by rw [q3, hpose3]; exact hnorm)
  -- the second plan
  have m := nodeKnows _ _ _ s3 h4
  have mp : s3.position = p2 := by rw [hs3]
  have mq : s3.orientation = ⟨1, 0, 0, 0⟩ := by rw [hs3]
  obtain ⟨y, hy, hry, -, -, -⟩ := plan_calls h4 h5
  obtain ⟨m1, m2, m3, m4⟩ := updateCalls_lasts s3.calls s3 frame2
  have mcf : lastConfig (s3.calls ++ updateCalls s3 frame2) = some exampleSeenConfig := by rw [m1, m.config]; exact hc3
  have hyy : loopM (lpStep Q) s3.planner (updateCalls s3 frame2) = some y := by
    rw [loopM_append', m.calls] at hy
    exact hy
  have ky := knows _ y hy
  have kcy := ky.config _ mcf
  obtain ⟨y1, -, y3, y4, -⟩ := ky.state _ _ _ m2
  rw [mp] at y1
  have hcly : y.cloud = [⟨A, 0⟩] := by
    rw [updateCalls_cloud (s := s3) (frame := frame2) _ _ _ hyy (updateCalls_no_run s3 frame2), q1, hcl1]
  have hfvy : y.fovs = [⟨0, 0, 60, 10⟩] := by
    rw [hf2] at hyy
    exact fovs_one hyy (by rw [q1]; exact hfv1)
  obtain ⟨c1, c2⟩ := run_cloud hry
  have dA2 := pointAt_distance p2 (3 / 20) 8 90 (by norm_num)
  rw [← hA2] at dA2
  have huy : usableNew (y.cloudParams 2) y.clouds = [] := by
    rw [clouds_known _ y hy, m3, hf2]
    rfl
  have hcarry : Carryable (y.cloudParams 2) ⟨A, 0⟩ := by
    refine ⟨?_, ?_, ?_⟩
    · rw [show (y.cloudParams 2).position = p2 from y1, show (y.cloudParams 2).max_range = 15 from kcy.p1, dA2.1]
      norm_num
    · rw [show (y.cloudParams 2).max_age = 20 from kcy.p4]
      norm_num
    · have e := C24_body_direction (y.cloudParams 2) (3 / 20) 8 0 (by norm_num) (by norm_num) (by norm_num)
      have e1 : (y.cloudParams 2).position = p2 := y1
      have e2 : (y.cloudParams 2).yaw_deg = 0 := by
        show y.yaw_deg = 0
        rw [y3, mq]
        exact yaw_identity
      have e3 : (y.cloudParams 2).pitch_deg = 0 := by
        show y.pitch_deg = 0
        rw [y4, mq]
        unfold getPitchFromQuaternion
        norm_num
      rw [e1, e2, e3, show (90 : ℝ) - 0 = 90 by norm_num, ← hA2] at e
      rw [e, show (y.cloudParams 2).fov = [⟨0, 0, 60, 10⟩] from hfvy, C03_wrapPolar_fixed _ (by norm_num) (by norm_num) (by norm_num) (by norm_num)]
      rw [Bool.eq_false_iff]
      intro hin
      obtain ⟨f, hff, hin⟩ := (C11_fov_list _ _).1.mp hin
      rw [List.mem_singleton] at hff
      subst hff
      rw [C11_fov_membership_partial _ _ (by norm_num) (by norm_num) (by norm_num) (by norm_num) (by norm_num)] at hin
      have := (abs_le.mp hin.2).1
      norm_num at this
  have hcloud : s4.planner.cloud.map (·.p) = [A] := by
    rw [C24_exact _ _ _ c2, huy, hcly] at c1
    have p0 := pick_snoc (Remembered (y.cloudParams 2) y.clouds) [] ⟨A, 0⟩
    rw [if_pos (by
      refine ⟨hcarry, ?_, by simp⟩
      unfold newCount
      rw [huy, show (y.cloudParams 2).min_points = 1 from kcy.p5]
      simp)] at p0
    have p0 : pick (Remembered (y.cloudParams 2) y.clouds) [⟨A, 0⟩] = [⟨A, 0⟩] := p0
    rw [p0] at c1
    rw [← Option.some.inj c1]
    rfl
  have hcp : (newestPx4 exampleLaunch pre).cp_dist = .fin 4 := by rw [hpre]; rfl
  obtain ⟨r0, w1, w2⟩ := (C94_when _ _ _ s3 s4 _ h4 h5).2.2.1 frame2 2 rfl 4 hcp (by norm_num)
  rw [← m.px4] at hcp
  obtain ⟨r, r1, r2, r3⟩ := C94_bins _ 2 y s4.planner hy hry _ mcf _ _ _ m2 _ m4 4 hcp (by norm_num)
  rw [w1] at r1
  obtain rfl := Option.some.inj r1
  have hview : ∃ f ∈ y.fovs, BinInView f (getYawFromQuaternion s3.orientation) 15 := by
    rw [hfvy, mq]
    exact ⟨_, List.mem_singleton.mpr rfl, bin15_view 10 (by norm_num)⟩
  have b1 : BinOf 15 90 := ⟨by norm_num, 0, by norm_num, by norm_num⟩
  have row : coarseRow 8 = 16 := coarseRow_eq 8 16 (by norm_num) (by norm_num)
  have gA : polarToHistogramIndex (cartesianToPolarHistogram A p2) 6 = (((45 : ℕ) : ℤ), ((16 : ℕ) : ℤ)) := by
    rw [hA2, coarse_cell p2 (3 / 20) 8 90 (by norm_num) (by norm_num) (by norm_num), bin_column b1, row]
  have h16 : RowShows s4.planner.cloud s3.position 15 16 (3 / 20) := by
    unfold RowShows
    dsimp only
    rw [hcloud, mp]
    rw [List.filter_cons_of_pos (by rw [gA]; decide), List.filter_nil]
    refine ⟨by simp, ?_, by norm_num, ?_⟩
    · simp only [List.map_cons, List.map_nil, List.sum_cons, List.sum_nil, dA2.2]
      norm_num
    · have := (sin_row 16).2 (by norm_num) (by norm_num)
      push_cast at this ⊢
      linarith
  have hout := ((r3 15 (by norm_num)).2 hview).2 (Or.inr ⟨16, 3 / 20, by norm_num, by norm_num, h16, by norm_num [exampleSeenConfig]⟩) (by norm_num [exampleSeenConfig])
  refine ⟨exampleUninit, exampleLaunch, pre, s3, s4, frame2, exampleSeenConfig, p2, A, r0, h4, h5, hc3, rfl, rfl, rfl, by rw [hpose3],
    ⟨frame, by rw [hpre]; simp, by rw [hf]; simp⟩, hA2, dA2.2, by rw [hcloud]; simp, b1, ?_, w2, hout⟩
  rw [hpose3]
  exact ⟨_, by rw [hf2]; exact List.mem_cons_self, bin15_view 10 (by norm_num)⟩

end Avoidance
