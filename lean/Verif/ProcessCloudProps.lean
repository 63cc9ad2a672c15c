import Verif.ProcessCloud
import Verif.PolarProps

/-!
# C24 – the processed obstacle cloud
-/

namespace Avoidance

/-! ## Specification -/

/-- The new points that count: finite, strictly between minimum and maximum sensor range. -/
noncomputable def usableNew (c : CloudParams) (clouds : List (List (V3 (Flt ℝ)))) : List (V3 ℝ) :=
  (clouds.flatten.filterMap V3.finite?).filter (fun p =>
    c.min_range * c.min_range < distSq c.position p ∧
    distSq c.position p < c.max_range * c.max_range)

/-- Number of usable new points in a cell. -/
noncomputable def newCount (c : CloudParams) (clouds : List (List (V3 (Flt ℝ)))) (k : ℤ × ℤ) : ℕ :=
  ((usableNew c clouds).filter (fun p => cellOf c p = k)).length

/-- A remembered point that may be carried over: inside the maximum range, younger than the
maximum age and outside the field of view. -/
def Carryable (c : CloudParams) (o : AgedPoint ℝ) : Prop :=
  distSq c.position o.p < c.max_range * c.max_range ∧ o.age < c.max_age ∧
  pointInsideFOV c.fov (bodyDirection c o.p) = false

/-- The point at distance `r` from the vehicle, `α` degrees above the horizon and `β` degrees
clockwise from north (seen from above). -/
noncomputable def pointAt (o : V3 ℝ) (r α β : ℝ) : V3 ℝ :=
  ⟨o.x + r * Real.cos (α * degToRad) * Real.sin (β * degToRad),
   o.y + r * Real.cos (α * degToRad) * Real.cos (β * degToRad), o.z + r * Real.sin (α * degToRad)⟩

/-- **C24 (the cells are 2° × 2°).** A point `α` above the horizon and `β` clockwise from north lies
in the cell (number of whole 2° steps from south, number of whole 2° steps from straight down). -/
theorem C24_cell_of_direction (c : CloudParams) (r α β : ℝ) (hr : 0 < r) (h1 : -90 < α) (h2 : α < 90) :
    cellOf c (pointAt c.position r α β) = (⌊(wrap180 β + 180) / 2⌋, ⌊(α + 90) / 2⌋) := by
  obtain ⟨β', hd, b1, b2, h⟩ := C05_polar_of_direction c.position r α β hr h1 h2
  unfold cellOf pointAt
  rw [h]
  obtain ⟨⟨w1, w2, _⟩, wu⟩ := C01_wrap180_canonical β
  have hw : wrapPolar (⟨α, β', r⟩ : PolarPoint ℝ) = ⟨α, wrap180 β, r⟩ := by
    rw [← wrapPolar_congr hd, wrapPolar_cases]
    have ha : wrap180 α = α :=
      ((C01_wrap180_canonical α).2 _ (by linarith) (by linarith) ⟨0, by simp⟩).symm
    simp only [ha]
    rw [if_neg (by linarith), if_neg (by linarith)]
  have r1 := C04_index_in_range (⟨α, β', r⟩ : PolarPoint ℝ) (ALPHA_RES / 3) (by decide) (by decide)
  unfold polarToHistogramIndex at r1 ⊢
  rw [hw] at r1 ⊢
  have e1 : wrap180 β / (((ALPHA_RES / 3 : ℕ)) : ℝ) + 180 / ((ALPHA_RES / 3 : ℕ) : ℝ) =
      (wrap180 β + 180) / 2 := by norm_num [ALPHA_RES]; ring
  have e2 : α / (((ALPHA_RES / 3 : ℕ)) : ℝ) + 90 / ((ALPHA_RES / 3 : ℕ) : ℝ) =
      (α + 90) / 2 := by norm_num [ALPHA_RES]; ring
  dsimp only
  rw [e1, e2]
  have f1 : 0 ≤ ⌊(wrap180 β + 180) / 2⌋ := Int.floor_nonneg.2 (by linarith)
  have f2 : ⌊(wrap180 β + 180) / 2⌋ < 180 := Int.floor_lt.2 (by push_cast; linarith)
  have f3 : 0 ≤ ⌊(α + 90) / 2⌋ := Int.floor_nonneg.2 (by linarith)
  have f4 : ⌊(α + 90) / 2⌋ < 90 := Int.floor_lt.2 (by push_cast; linarith)
  have g1 : (360 / (ALPHA_RES / 3) : ℕ) = 180 := by decide
  have g2 : (180 / (ALPHA_RES / 3) : ℕ) = 90 := by decide
  rw [g1, g2, if_neg (by push_cast; omega), if_neg (by omega), if_neg (by push_cast; omega),
    if_neg (by omega)]

/-- **C24 (the body direction).** For a point `α` above the horizon and `a` counter-clockwise from
east, the direction tested against the field of view is `α + pitch` above the camera axis (the
vehicle's pitch is positive nose down, elevations in the body frame positive downwards) and
`a - yaw` counter-clockwise from the nose. -/
theorem C24_body_direction (c : CloudParams) (r α a : ℝ) (hr : 0 < r) (h1 : -90 < α) (h2 : α < 90) :
    bodyDirection c (pointAt c.position r α (90 - a)) =
      wrapPolar ⟨-(α + c.pitch_deg), a - c.yaw_deg, r⟩ := by
  obtain ⟨β', ⟨n, hn⟩, b1, b2, h⟩ := C05_polar_of_direction c.position r α (90 - a) hr h1 h2
  unfold bodyDirection cartesianToPolarFCU pointAt
  rw [h]
  have hw : wrapPolar (⟨-α, -β' + 90, r⟩ : PolarPoint ℝ) = ⟨-α, wrap180 (-β' + 90), r⟩ := by
    rw [wrapPolar_cases]
    have ha : wrap180 (-α) = -α :=
      ((C01_wrap180_canonical (-α)).2 _ (by linarith) (by linarith) ⟨0, by simp⟩).symm
    simp only [ha]
    rw [if_neg (by linarith), if_neg (by linarith)]
  dsimp only
  rw [hw]
  obtain ⟨⟨_, _, k, hk⟩, _⟩ := C01_wrap180_canonical (-β' + 90)
  dsimp only
  rw [show -α - c.pitch_deg = -(α + c.pitch_deg) by ring]
  apply wrapPolar_congr
  exact ⟨-k + n, by push_cast; linarith⟩

-- a point 30° above the horizon, ahead of a vehicle flying level to the east, is 30° above the axis
example (fov : List (FOV ℝ)) : bodyDirection ⟨fov, 0, 0, ⟨0, 0, 0⟩, 1, 10, 1, 1, 1⟩
    (pointAt ⟨0, 0, 0⟩ 5 30 (90 - 0)) = ⟨-30, 0, 5⟩ := by
  have h := C24_body_direction ⟨fov, 0, 0, ⟨0, 0, 0⟩, 1, 10, 1, 1, 1⟩ 5 30 0 (by norm_num) (by norm_num)
    (by norm_num)
  rw [h, C03_wrapPolar_fixed] <;> norm_num

/-! ## Proof -/

theorem foldl_newPoint_filter (c : CloudParams) (l : List (V3 (Flt ℝ))) (s : CloudState) :
    l.foldl (newPoint c) s =
      ((l.filterMap V3.finite?).filter (fun p =>
        c.min_range * c.min_range < distSq c.position p ∧
        distSq c.position p < c.max_range * c.max_range)).foldl
        (fun s p => newPoint c s p.toFlt) s := by
  induction l generalizing s with
  | nil => rfl
  | cons x l ih =>
    rw [List.foldl_cons, ih, List.filterMap_cons]
    cases hx : V3.finite? x with
    | none => simp [newPoint, hx]
    | some p =>
      by_cases h : c.min_range * c.min_range < distSq c.position p ∧
        distSq c.position p < c.max_range * c.max_range
      · have e : newPoint c s x = newPoint c s p.toFlt := by
          simp only [newPoint, hx, finite?_toFlt]
        simp [h, e]
      · have e : newPoint c s x = s := by
          simp only [newPoint, hx]; rw [if_neg h]
        simp [h, e]

theorem foldl_clouds (c : CloudParams) (clouds : List (List (V3 (Flt ℝ)))) (s : CloudState) :
    clouds.foldl (fun s cloud => cloud.foldl (newPoint c) s) s =
      (usableNew c clouds).foldl (fun s p => newPoint c s p.toFlt) s := by
  unfold usableNew
  rw [← foldl_newPoint_filter, List.foldl_flatten]

/-- State after the first loop. -/
structure NewInv (c : CloudParams) (seen : List (V3 ℝ)) (s : CloudState) : Prop where
  count : ∀ k, s.counter k = (seen.filter (fun p => cellOf c p = k)).length
  nodup : (s.out.map (fun a => cellOf c a.p)).Nodup
  occ : ∀ k, k ∈ s.out.map (fun a => cellOf c a.p) ↔ c.min_points ≤ s.counter k
  src : ∀ a ∈ s.out, a.age = 0 ∧ ∃ pre post, seen = pre ++ a.p :: post ∧
    (((pre ++ [a.p]).filter (fun p => cellOf c p = cellOf c a.p)).length : ℤ) = c.min_points

theorem newInv_step (c : CloudParams) {seen : List (V3 ℝ)} {s : CloudState}
    (h : NewInv c seen s) {p : V3 ℝ} (hp : c.min_range * c.min_range < distSq c.position p ∧
      distSq c.position p < c.max_range * c.max_range) :
    NewInv c (seen ++ [p]) (newPoint c s p.toFlt) := by
  have e : newPoint c s p.toFlt =
      { counter := fun k => if k = cellOf c p then s.counter (cellOf c p) + 1 else s.counter k
        out := if s.counter (cellOf c p) + 1 = c.min_points then s.out ++ [⟨p, 0⟩] else s.out } := by
    simp only [newPoint, finite?_toFlt]; rw [if_pos hp]
  rw [e]
  have hcount : ∀ k, (if k = cellOf c p then s.counter (cellOf c p) + 1 else s.counter k) =
      (((seen ++ [p]).filter (fun q => decide (cellOf c q = k))).length : ℤ) := by
    intro k
    rw [List.filter_append, List.length_append]
    by_cases hk : k = cellOf c p
    · subst hk; simp [h.count]
    · have : ¬ cellOf c p = k := fun h => hk h.symm
      simp [hk, this, h.count]
  constructor
  · exact hcount
  · dsimp only
    split_ifs with hn
    · rw [List.map_append, List.nodup_append]
      refine ⟨h.nodup, by simp, ?_⟩
      intro a ha b hb hab
      simp only [List.map_cons, List.map_nil, List.mem_singleton] at hb
      subst hab hb
      have := (h.occ _).1 ha
      omega
    · exact h.nodup
  · intro k
    dsimp only
    by_cases hn : s.counter (cellOf c p) + 1 = c.min_points
    · rw [if_pos hn]
      by_cases hk : k = cellOf c p
      · subst hk; simp; omega
      · rw [if_neg hk, ← h.occ k]; simp [hk]
    · rw [if_neg hn, h.occ k]
      by_cases hk : k = cellOf c p
      · subst hk; rw [if_pos rfl]; omega
      · rw [if_neg hk]
  · intro a ha
    dsimp only at ha
    have old : a ∈ s.out → a.age = 0 ∧ ∃ pre post, seen ++ [p] = pre ++ a.p :: post ∧
        (((pre ++ [a.p]).filter (fun q => decide (cellOf c q = cellOf c a.p))).length : ℤ)
          = c.min_points := by
      intro ha
      obtain ⟨h1, pre, post, h2, h3⟩ := h.src a ha
      exact ⟨h1, pre, post ++ [p], by rw [h2]; simp, h3⟩
    by_cases hn : s.counter (cellOf c p) + 1 = c.min_points
    · rw [if_pos hn] at ha
      rcases List.mem_append.1 ha with ha | ha
      · exact old ha
      · simp only [List.mem_singleton] at ha
        subst ha
        refine ⟨rfl, seen, [], rfl, ?_⟩
        have := hcount (cellOf c p)
        rw [if_pos rfl] at this
        dsimp only
        rw [← this]; exact hn
    · rw [if_neg hn] at ha; exact old ha

theorem newInv_fold (c : CloudParams) (hm : 1 ≤ c.min_points) (l : List (V3 ℝ))
    (hl : ∀ p ∈ l, c.min_range * c.min_range < distSq c.position p ∧
      distSq c.position p < c.max_range * c.max_range) :
    NewInv c l (l.foldl (fun s p => newPoint c s p.toFlt) ⟨fun _ => 0, []⟩) := by
  induction l using List.reverseRecOn with
  | nil => constructor <;> simp; omega
  | append_singleton l p ih =>
    rw [List.foldl_append]
    exact newInv_step c (ih (fun q hq => hl q (by simp [hq]))) (hl p (by simp))

/-- State during the second loop. -/
structure OldInv (c : CloudParams) (cnt : ℤ × ℤ → ℕ) (new0 : List (AgedPoint ℝ))
    (seen : List (AgedPoint ℝ)) (s : CloudState) : Prop where
  nodup : (s.out.map (fun a => cellOf c a.p)).Nodup
  occ : ∀ k, k ∈ s.out.map (fun a => cellOf c a.p) ↔ c.min_points ≤ s.counter k
  low : ∀ k, (cnt k : ℤ) ≤ s.counter k ∨ c.min_points ≤ s.counter k
  ext : ∃ more, s.out = new0 ++ more ∧ ∀ a ∈ more, ∃ o ∈ seen, a.p = o.p ∧ a.age = o.age + c.elapsed ∧
    Carryable c o ∧ (cnt (cellOf c o.p) : ℤ) < c.min_points
  done : ∀ o ∈ seen, Carryable c o → cellOf c o.p ∈ s.out.map (fun a => cellOf c a.p)

theorem oldInv_step (c : CloudParams) {cnt : ℤ × ℤ → ℕ} {new0 seen : List (AgedPoint ℝ)}
    {s : CloudState} (h : OldInv c cnt new0 seen s) (o : AgedPoint ℝ) :
    OldInv c cnt new0 (seen ++ [o]) (oldPoint c s o) := by
  have keep : (Carryable c o → c.min_points ≤ s.counter (cellOf c o.p)) →
      OldInv c cnt new0 (seen ++ [o]) s := by
    intro hk
    refine ⟨h.nodup, h.occ, h.low, ?_, ?_⟩
    · obtain ⟨more, h1, h2⟩ := h.ext
      refine ⟨more, h1, fun a ha => ?_⟩
      obtain ⟨o', ho', h3⟩ := h2 a ha
      exact ⟨o', by simp [ho'], h3⟩
    · intro o' ho' hc
      rcases List.mem_append.1 ho' with ho' | ho'
      · exact h.done o' ho' hc
      · simp only [List.mem_singleton] at ho'; subst ho'
        exact (h.occ _).2 (hk hc)
  unfold oldPoint
  by_cases h1 : distSq c.position o.p < c.max_range * c.max_range
  · rw [if_pos h1]
    dsimp only
    by_cases h2 : s.counter (cellOf c o.p) < c.min_points ∧ o.age < c.max_age ∧
        pointInsideFOV c.fov (bodyDirection c o.p) = false
    · rw [if_pos h2]
      have hnot : cellOf c o.p ∉ s.out.map (fun a => cellOf c a.p) := fun hh => by
        have := (h.occ _).1 hh; omega
      refine ⟨?_, ?_, ?_, ?_, ?_⟩
      · dsimp only
        rw [List.map_append, List.nodup_append]
        refine ⟨h.nodup, by simp, ?_⟩
        intro a ha b hb hab
        simp only [List.map_cons, List.map_nil, List.mem_singleton] at hb
        subst hab hb
        exact hnot ha
      · intro k
        dsimp only
        by_cases hk : k = cellOf c o.p
        · subst hk; simp
        · rw [if_neg hk, ← h.occ k]; simp [hk]
      · intro k
        dsimp only
        by_cases hk : k = cellOf c o.p
        · subst hk; simp
        · rw [if_neg hk]; exact h.low k
      · obtain ⟨more, e1, e2⟩ := h.ext
        refine ⟨more ++ [⟨o.p, o.age + c.elapsed⟩], by dsimp only; rw [e1]; simp, ?_⟩
        intro a ha
        rcases List.mem_append.1 ha with ha | ha
        · obtain ⟨o', ho', h3⟩ := e2 a ha
          exact ⟨o', by simp [ho'], h3⟩
        · simp only [List.mem_singleton] at ha; subst ha
          refine ⟨o, by simp, rfl, rfl, ⟨h1, h2.2⟩, ?_⟩
          rcases h.low (cellOf c o.p) with h5 | h5 <;> omega
      · intro o' ho' hc
        dsimp only
        rw [List.map_append]
        rcases List.mem_append.1 ho' with ho' | ho'
        · exact List.mem_append_left _ (h.done o' ho' hc)
        · simp only [List.mem_singleton] at ho'; subst ho'; simp
    · rw [if_neg h2]
      apply keep
      intro hc
      by_contra hlt
      exact h2 ⟨by omega, hc.2⟩
  · rw [if_neg h1]
    exact keep (fun hc => absurd hc.1 h1)

theorem oldInv_fold (c : CloudParams) {cnt : ℤ × ℤ → ℕ} {new0 : List (AgedPoint ℝ)} {s : CloudState}
    (h : OldInv c cnt new0 [] s) (old : List (AgedPoint ℝ)) :
    OldInv c cnt new0 old (old.foldl (oldPoint c) s) := by
  induction old using List.reverseRecOn with
  | nil => exact h
  | append_singleton l o ih => rw [List.foldl_append]; exact oldInv_step c ih o

theorem process_core (c : CloudParams) (hm : 1 ≤ c.min_points) (old : List (AgedPoint ℝ))
    (clouds : List (List (V3 (Flt ℝ)))) (hne : clouds ≠ []) :
    ∃ new0 out s, processPointcloud c old clouds = some out ∧ s.out = out ∧
      OldInv c (newCount c clouds) new0 old s ∧
      (∀ a ∈ new0, a.age = 0 ∧ ∃ pre post, usableNew c clouds = pre ++ a.p :: post ∧
        (((pre ++ [a.p]).filter (fun p => cellOf c p = cellOf c a.p)).length : ℤ) = c.min_points) ∧
      (∀ k, c.min_points ≤ newCount c clouds k → k ∈ new0.map (fun a => cellOf c a.p)) := by
  have h1 := newInv_fold c hm (usableNew c clouds) (by
    intro p hp
    simpa using (List.mem_filter.1 hp).2)
  rw [← foldl_clouds] at h1
  refine ⟨_, _, _, by unfold processPointcloud; rw [if_neg hne], rfl,
    oldInv_fold c ⟨h1.nodup, h1.occ, ?_, ⟨[], (List.append_nil _).symm, by simp⟩, by simp⟩ old, h1.src, ?_⟩
  · intro k; left; rw [h1.count k]; rfl
  · intro k hk
    rw [h1.occ k, h1.count k]; exact hk

/-! ## Property theorems -/

/-- **C24 (soundness).** With at least one sensor cloud and a minimum of at least one point per
cell, every point of the processed cloud is either the point (age 0) with which its 2° cell reached
the required number of usable new points, or a remembered point, aged by the elapsed time, that is
inside the maximum range, young enough and outside the field of view, in a cell without enough new
points. -/
theorem C24_sound (c : CloudParams) (hm : 1 ≤ c.min_points) (old : List (AgedPoint ℝ))
    (clouds : List (List (V3 (Flt ℝ)))) (hne : clouds ≠ []) :
    ∃ out, processPointcloud c old clouds = some out ∧ ∀ a ∈ out,
      (a.age = 0 ∧ a.p ∈ usableNew c clouds ∧
        c.min_points ≤ newCount c clouds (cellOf c a.p)) ∨
      (∃ o ∈ old, a.p = o.p ∧ a.age = o.age + c.elapsed ∧ Carryable c o ∧
        (newCount c clouds (cellOf c o.p) : ℤ) < c.min_points) := by
  obtain ⟨new0, out, s, h1, h2, h3, h4, -⟩ := process_core c hm old clouds hne
  refine ⟨out, h1, ?_⟩
  obtain ⟨more, h5, h6⟩ := h3.ext
  rw [← h2, h5]
  intro a ha
  rcases List.mem_append.1 ha with ha | ha
  · left
    obtain ⟨e1, pre, post, e2, e3⟩ := h4 a ha
    refine ⟨e1, by rw [e2]; simp, ?_⟩
    rw [← e3]
    unfold newCount
    rw [e2]
    have : pre ++ a.p :: post = (pre ++ [a.p]) ++ post := by simp
    rw [this, List.filter_append (pre ++ [a.p]) post, List.length_append, Nat.cast_add]
    have : (0 : ℤ) ≤ ((post.filter (fun p => decide (cellOf c p = cellOf c a.p))).length : ℤ) :=
      Int.natCast_nonneg _
    omega
  · right; exact h6 a ha

/-- **C24 (one point per cell).** No two points of the processed cloud lie in the same 2° cell. -/
theorem C24_one_per_cell (c : CloudParams) (hm : 1 ≤ c.min_points) (old : List (AgedPoint ℝ))
    (clouds : List (List (V3 (Flt ℝ)))) (out : List (AgedPoint ℝ))
    (h : processPointcloud c old clouds = some out) : (out.map (fun a => cellOf c a.p)).Nodup := by
  have hne : clouds ≠ [] := by
    rintro rfl; simp [processPointcloud] at h
  obtain ⟨new0, out', s, h1, h2, h3, -⟩ := process_core c hm old clouds hne
  rw [h1] at h; cases h
  rw [← h2]; exact h3.nodup

/-- **C24 (nothing relevant is dropped).** Every cell with enough usable new points, and every cell
of a remembered point that may be carried over, has a point in the processed cloud. -/
theorem C24_complete (c : CloudParams) (hm : 1 ≤ c.min_points) (old : List (AgedPoint ℝ))
    (clouds : List (List (V3 (Flt ℝ)))) (out : List (AgedPoint ℝ))
    (h : processPointcloud c old clouds = some out) :
    (∀ k, c.min_points ≤ newCount c clouds k → ∃ a ∈ out, a.age = 0 ∧ cellOf c a.p = k) ∧
    (∀ o ∈ old, Carryable c o → ∃ a ∈ out, cellOf c a.p = cellOf c o.p) := by
  have hne : clouds ≠ [] := by
    rintro rfl; simp [processPointcloud] at h
  obtain ⟨new0, out', s, h1, h2, h3, h4, h5⟩ := process_core c hm old clouds hne
  rw [h1] at h; cases h
  obtain ⟨more, h6, -⟩ := h3.ext
  constructor
  · intro k hk
    obtain ⟨a, ha, e⟩ := List.mem_map.1 (h5 k hk)
    exact ⟨a, by rw [← h2, h6]; simp [ha], (h4 a ha).1, e⟩
  · intro o ho hc
    obtain ⟨a, ha, e⟩ := List.mem_map.1 (h3.done o ho hc)
    exact ⟨a, by rw [← h2]; exact ha, e⟩

/-- **C24 (range).** Every new point kept is strictly between the minimum and the maximum range,
every remembered one strictly inside the maximum range. -/
theorem C24_range (c : CloudParams) (hm : 1 ≤ c.min_points) (old : List (AgedPoint ℝ))
    (clouds : List (List (V3 (Flt ℝ)))) (out : List (AgedPoint ℝ))
    (h : processPointcloud c old clouds = some out) :
    ∀ a ∈ out, distSq c.position a.p < c.max_range * c.max_range ∧
      (c.min_range * c.min_range < distSq c.position a.p ∨ ∃ o ∈ old, a.p = o.p) := by
  have hne : clouds ≠ [] := by
    rintro rfl; simp [processPointcloud] at h
  obtain ⟨out', h1, h2⟩ := C24_sound c hm old clouds hne
  rw [h1] at h; cases h
  intro a ha
  rcases h2 a ha with ⟨-, h3, -⟩ | ⟨o, ho, e1, -, e3, -⟩
  · have := (List.mem_filter.1 h3).2
    simp only [decide_eq_true_eq] at this
    exact ⟨this.2, Or.inl this.1⟩
  · exact ⟨by rw [e1]; exact e3.1, Or.inr ⟨o, ho, e1⟩⟩

/-- The counter matrix (90 × 180) is never indexed out of bounds. -/
theorem C24_cells_in_bounds (c : CloudParams) (p : V3 ℝ) :
    0 ≤ (cellOf c p).1 ∧ (cellOf c p).1 < 180 ∧ 0 ≤ (cellOf c p).2 ∧ (cellOf c p).2 < 90 := by
  have := C04_index_in_range (cartesianToPolarHistogram p c.position) 2 (by norm_num) (by norm_num)
  simpa [cellOf, ALPHA_RES] using this

/-- With a minimum of zero (or fewer) points per cell the processed cloud is always empty: every
obstacle is dropped. -/
theorem C24_zero_minimum_drops_everything (c : CloudParams) (hm : c.min_points ≤ 0)
    (old : List (AgedPoint ℝ)) (clouds : List (List (V3 (Flt ℝ)))) (hne : clouds ≠ []) :
    processPointcloud c old clouds = some [] := by
  have inv1 : ∀ (l : List (V3 ℝ)) (s : CloudState), (∀ k, 0 ≤ s.counter k) → s.out = [] →
      (∀ k, 0 ≤ (l.foldl (fun s p => newPoint c s p.toFlt) s).counter k) ∧
      (l.foldl (fun s p => newPoint c s p.toFlt) s).out = [] := by
    intro l
    induction l with
    | nil => intro s h1 h2; exact ⟨h1, h2⟩
    | cons p l ih =>
      intro s h1 h2
      rw [List.foldl_cons]
      apply ih
      · intro k
        simp only [newPoint, finite?_toFlt]
        by_cases h3 : c.min_range * c.min_range < distSq c.position p ∧
            distSq c.position p < c.max_range * c.max_range
        · rw [if_pos h3]
          dsimp only
          by_cases h4 : k = cellOf c p
          · rw [if_pos h4]; have := h1 (cellOf c p); omega
          · rw [if_neg h4]; exact h1 k
        · rw [if_neg h3]; exact h1 k
      · simp only [newPoint, finite?_toFlt]
        have h4 : ¬ s.counter (cellOf c p) + 1 = c.min_points := by
          have := h1 (cellOf c p); omega
        by_cases h3 : c.min_range * c.min_range < distSq c.position p ∧
            distSq c.position p < c.max_range * c.max_range
        · rw [if_pos h3]
          dsimp only
          rw [if_neg h4]; exact h2
        · rw [if_neg h3]; exact h2
  have inv2 : ∀ (l : List (AgedPoint ℝ)) (s : CloudState), (∀ k, 0 ≤ s.counter k) → s.out = [] →
      (l.foldl (oldPoint c) s).out = [] := by
    intro l
    induction l with
    | nil => intro s _ h2; exact h2
    | cons o l ih =>
      intro s h1 h2
      have : oldPoint c s o = s := by
        unfold oldPoint
        split_ifs with h3
        · dsimp only
          rw [if_neg]
          rintro ⟨h4, -⟩
          have := h1 (cellOf c o.p); omega
        · rfl
      rw [List.foldl_cons, this]; exact ih s h1 h2
  unfold processPointcloud
  rw [if_neg hne, foldl_clouds]
  obtain ⟨h1, h2⟩ := inv1 (usableNew c clouds) ⟨fun _ => 0, []⟩ (by simp) rfl
  rw [inv2 old _ h1 h2]

/-- Non-vacuity: a usable new point exists and fulfils the premises (minimum one point). -/
example : (⟨2, 0, 0⟩ : V3 ℝ) ∈ usableNew ⟨[], 0, 0, ⟨0, 0, 0⟩, 1, 5, 10, 1, 1⟩
    [[⟨.nan, .fin 0, .fin 0⟩, ⟨.fin 2, .fin 0, .fin 0⟩]] ∧ (1 : ℤ) ≤ 1 := by
  constructor
  · simp [usableNew, V3.finite?, distSq]; norm_num
  · norm_num

end Avoidance
