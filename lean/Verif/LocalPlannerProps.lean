import Verif.LocalPlanner
import Verif.CostProps
import Verif.HistGenProps
import Verif.FovProps
import Mathlib.Algebra.BigOperators.Intervals
import Mathlib.Tactic.IntervalCases
import Mathlib.Algebra.Order.BigOperators.Group.Finset

/-!
# C31 (setpoint on the path), C32 (obstacle distances), C33 (speed limit), C34 (closest point),
C64 (freshness of published data), C65 (histogram image)
-/

set_option linter.unusedSectionVars false

namespace Avoidance

/-! ## C31 -/

/-- Node `k` of the path in flying order: the path vector lists the nodes from the goal back to the
vehicle; its last entry is the vehicle position itself and is skipped. -/
noncomputable def flownNode (path : List (V3 ℝ)) (k : ℕ) : V3 ℝ :=
  path.getD (path.length - 2 - k) ⟨0, 0, 0⟩

/-- Length of the path from its first flown node up to node `k`. -/
noncomputable def flownLength (path : List (V3 ℝ)) (k : ℕ) : ℝ :=
  ∑ t ∈ Finset.range k, ((flownNode path (t + 1)).minus (flownNode path t)).norm

theorem flownLength_succ (path : List (V3 ℝ)) (k : ℕ) : flownLength path (k + 1) =
    flownLength path k + ((flownNode path (k + 1)).minus (flownNode path k)).norm := by
  unfold flownLength; rw [Finset.sum_range_succ]

theorem flownLength_mono (path : List (V3 ℝ)) {a b : ℕ} (h : a ≤ b) :
    flownLength path a ≤ flownLength path b := by
  unfold flownLength
  exact Finset.sum_le_sum_of_subset_of_nonneg (Finset.range_mono h) (fun _ _ _ => V3.norm_nonneg _)

theorem getElem?_getD {path : List (V3 ℝ)} {i j : ℕ} (h : i < path.length) (hij : i = j) :
    path[i]? = some (path.getD j ⟨0, 0, 0⟩) := by
  subst hij; simp [List.getD, h]

/-- The walk, started on segment `k` with remaining distance `D - length k`. -/
theorem walk_spec (path : List (V3 ℝ)) (D : ℝ) (i : ℕ) :
    ∀ k, i + k + 3 = path.length → flownLength path k ≤ D →
    (k = 0 ∨ flownLength path k < D) →
    ∃ k', k ≤ k' ∧ k' + 3 ≤ path.length ∧ flownLength path k' ≤ D ∧
      (k' = 0 ∨ flownLength path k' < D) ∧
      (k' + 3 = path.length ∨ D ≤ flownLength path (k' + 1)) ∧
      walkPath path i (D - flownLength path k)
        ((flownNode path (k + 1)).minus (flownNode path k))
        (pointOnSegment (flownNode path k) (D - flownLength path k)
          ((flownNode path (k + 1)).minus (flownNode path k))) =
      some (decide (D < flownLength path (k' + 1)),
        pointOnSegment (flownNode path k') (D - flownLength path k')
          ((flownNode path (k' + 1)).minus (flownNode path k'))) := by
  induction i with
  | zero =>
    intro k hk h1 h2
    refine ⟨k, le_rfl, by omega, h1, h2, Or.inl (by omega), ?_⟩
    simp only [walkPath]
    congr 3
    rw [flownLength_succ]
    apply propext; constructor <;> intro h <;> linarith
  | succ i ih =>
    intro k hk h1 h2
    by_cases hlt : D - flownLength path k > ((flownNode path (k + 1)).minus (flownNode path k)).norm
    · have hnext : flownLength path (k + 1) < D := by rw [flownLength_succ]; linarith
      obtain ⟨k', g1, g2, g3, g4, g5, g6⟩ := ih (k + 1) (by omega) hnext.le (Or.inr hnext)
      refine ⟨k', by omega, g2, g3, g4, g5, ?_⟩
      have ea : path[i]? = some (flownNode path (k + 1 + 1)) := by
        unfold flownNode
        exact getElem?_getD (by omega) (by omega)
      have eb : path[i + 1]? = some (flownNode path (k + 1)) := by
        unfold flownNode
        exact getElem?_getD (by omega) (by omega)
      simp only [walkPath]
      rw [if_pos hlt, ea, Option.bind_some, eb, Option.bind_some]
      rw [flownLength_succ] at g6
      have e : D - flownLength path k - ((flownNode path (k + 1)).minus (flownNode path k)).norm =
        D - (flownLength path k + ((flownNode path (k + 1)).minus (flownNode path k)).norm) := by ring
      rw [e]
      exact g6
    · refine ⟨k, le_rfl, by omega, h1, h2, Or.inr (by rw [flownLength_succ]; linarith), ?_⟩
      simp only [walkPath]
      rw [if_neg hlt]
      congr 3
      rw [flownLength_succ]
      apply propext; constructor <;> intro h <;> linarith

theorem getSetpoint_start (path : List (V3 ℝ)) (elapsed velocity : ℝ) (hn : 3 ≤ path.length) :
    getSetpointFromPath path elapsed velocity =
      walkPath path (path.length - 3) (elapsed * velocity - flownLength path 0)
        ((flownNode path (0 + 1)).minus (flownNode path 0))
        (pointOnSegment (flownNode path 0) (elapsed * velocity - flownLength path 0)
          ((flownNode path (0 + 1)).minus (flownNode path 0))) := by
  unfold getSetpointFromPath
  dsimp only
  rw [if_neg (by omega), if_neg (by omega)]
  have ea : path[path.length - 3]? = some (flownNode path (0 + 1)) := by
    unfold flownNode
    exact getElem?_getD (by omega) (by omega)
  have eb : path[path.length - 2]? = some (flownNode path 0) := by
    unfold flownNode
    exact getElem?_getD (by omega) (by omega)
  rw [ea, Option.bind_some, eb, Option.bind_some]
  simp [flownLength]

/-- **C31, soundness.** Whenever `getSetpointFromPath` reports success on a path of at least three
nodes (after a non-negative travelled distance `D`), the setpoint is finite and is the point of the
path at arc length `D`: it lies on the segment that contains that arc length. -/
theorem C31_setpoint_on_path (path : List (V3 ℝ)) (elapsed velocity : ℝ) (hn : 3 ≤ path.length)
    (hD : 0 ≤ elapsed * velocity) (sp : Option (V3 ℝ))
    (h : getSetpointFromPath path elapsed velocity = some (true, sp)) :
    ∃ k t : ℝ, ∃ i : ℕ, i + 3 ≤ path.length ∧ 0 ≤ t ∧ t < 1 ∧
      sp = some ((flownNode path i).plus (V3.smul t ((flownNode path (i + 1)).minus (flownNode path i)))) ∧
      k = t * ((flownNode path (i + 1)).minus (flownNode path i)).norm ∧
      flownLength path i + k = elapsed * velocity := by
  obtain ⟨i, -, g2, g3, -, -, g6⟩ := walk_spec path (elapsed * velocity) (path.length - 3) 0
    (by omega) (by simpa [flownLength] using hD) (Or.inl rfl)
  rw [getSetpoint_start path elapsed velocity hn, g6] at h
  simp only [Option.some.injEq, Prod.mk.injEq, decide_eq_true_eq] at h
  obtain ⟨h1, h2⟩ := h
  rw [flownLength_succ] at h1
  have hseg : 0 < ((flownNode path (i + 1)).minus (flownNode path i)).norm := by linarith
  refine ⟨elapsed * velocity - flownLength path i,
    (elapsed * velocity - flownLength path i) / ((flownNode path (i + 1)).minus (flownNode path i)).norm,
    i, g2, div_nonneg (by linarith) hseg.le, ?_, ?_, ?_, by ring⟩
  · rw [div_lt_one hseg]; linarith
  · rw [← h2]; unfold pointOnSegment; rw [if_neg hseg.ne']
  · field_simp

/-- **C31, when it succeeds.** Exactly if the travelled distance lies strictly inside a segment (the
start of the path included). -/
theorem C31_valid_iff (path : List (V3 ℝ)) (elapsed velocity : ℝ) (hn : 3 ≤ path.length)
    (hD : 0 ≤ elapsed * velocity) :
    ∃ b sp, getSetpointFromPath path elapsed velocity = some (b, sp) ∧
      (b = true ↔ ∃ i : ℕ, i + 3 ≤ path.length ∧
        (i = 0 ∨ flownLength path i < elapsed * velocity) ∧
        elapsed * velocity < flownLength path (i + 1)) := by
  obtain ⟨i, -, g2, g3, g4, g5, g6⟩ := walk_spec path (elapsed * velocity) (path.length - 3) 0
    (by omega) (by simpa [flownLength] using hD) (Or.inl rfl)
  rw [getSetpoint_start path elapsed velocity hn, g6]
  refine ⟨_, _, rfl, ?_⟩
  rw [decide_eq_true_eq]
  constructor
  · intro h; exact ⟨i, g2, g4, h⟩
  · rintro ⟨j, j1, j2, j3⟩
    rcases Nat.lt_trichotomy i j with hij | rfl | hij
    · have m := flownLength_mono path (show i + 1 ≤ j by omega)
      rcases j2 with rfl | j2
      · omega
      · rcases g5 with g5 | g5
        · omega
        · exfalso; linarith
    · exact j3
    · have m := flownLength_mono path (show j + 1 ≤ i by omega)
      exfalso; linarith

/-- Once the whole length has been travelled the path is rejected; so are paths with fewer than two
nodes.  A two-node path always yields its goal, whatever the elapsed time. -/
theorem C31_edges (path : List (V3 ℝ)) (elapsed velocity : ℝ) :
    (path.length < 2 → getSetpointFromPath path elapsed velocity = some (false, none)) ∧
    (∀ a b, path = [a, b] → getSetpointFromPath path elapsed velocity = some (true, some a)) ∧
    (3 ≤ path.length → flownLength path (path.length - 2) ≤ elapsed * velocity →
      ∃ sp, getSetpointFromPath path elapsed velocity = some (false, sp)) := by
  refine ⟨?_, ?_, ?_⟩
  · intro h; unfold getSetpointFromPath; dsimp only; rw [if_pos h]
  · rintro a b rfl; simp [getSetpointFromPath]
  · intro h3 hL
    have h0 : 0 ≤ flownLength path (path.length - 2) :=
      Finset.sum_nonneg (fun _ _ => V3.norm_nonneg _)
    obtain ⟨b, sp, h1, h2⟩ := C31_valid_iff path elapsed velocity h3 (h0.trans hL)
    refine ⟨sp, ?_⟩
    rw [h1]
    congr 2
    rw [← Bool.not_eq_true, h2]
    rintro ⟨i, i1, -, i3⟩
    have := flownLength_mono path (show i + 1 ≤ path.length - 2 by omega)
    linarith

/-- No input whatsoever makes `getSetpointFromPath` read outside the path. -/
theorem C31_defined (path : List (V3 ℝ)) (elapsed velocity : ℝ) :
    ∃ r, getSetpointFromPath path elapsed velocity = some r := by
  have walk : ∀ (i : ℕ) (d : ℝ) (seg : V3 ℝ) (sp : Option (V3 ℝ)), i < path.length →
      ∃ r, walkPath path i d seg sp = some r := by
    intro i
    induction i with
    | zero => intro d seg sp _; exact ⟨_, rfl⟩
    | succ i ih =>
      intro d seg sp hi
      unfold walkPath
      by_cases h : d > seg.norm
      · rw [if_pos h, List.getElem?_eq_getElem (by omega), Option.bind_some,
          List.getElem?_eq_getElem hi, Option.bind_some]
        exact ih _ _ _ (by omega)
      · rw [if_neg h]; exact ⟨_, rfl⟩
  unfold getSetpointFromPath
  dsimp only
  by_cases h1 : path.length < 2
  · rw [if_pos h1]; exact ⟨_, rfl⟩
  · rw [if_neg h1]
    by_cases h2 : path.length = 2
    · rw [if_pos h2, List.getElem?_eq_getElem (by omega)]; exact ⟨_, rfl⟩
    · rw [if_neg h2, List.getElem?_eq_getElem (by omega), Option.bind_some,
        List.getElem?_eq_getElem (by omega), Option.bind_some]
      exact walk _ _ _ _ (by omega)


/-- Finding: a vehicle exactly at an interior node (path length not exhausted) gets "path invalid". -/
theorem C31_rejects_at_interior_node :
    ∃ path : List (V3 ℝ), 3 ≤ path.length ∧ (1 : ℝ) * 1 < flownLength path (path.length - 2) ∧
      ∃ sp, getSetpointFromPath path 1 1 = some (false, sp) := by
  have hlen : ∀ k : ℕ, k ≤ 2 → flownLength [⟨2, 0, 0⟩, ⟨1, 0, 0⟩, ⟨0, 0, 0⟩, ⟨-1, 0, 0⟩] k = k := by
    have n1 : ∀ a b : ℝ, b - a = 1 → ((⟨b, 0, 0⟩ : V3 ℝ).minus ⟨a, 0, 0⟩).norm = 1 := by
      intro a b h; simp [V3.norm, V3.minus, V3.dot, h]
    intro k hk
    interval_cases k
    · simp [flownLength]
    · rw [flownLength_succ]
      simp only [flownLength, Finset.range_zero, Finset.sum_empty, zero_add]
      simp [flownNode, n1 0 1]
    · rw [flownLength_succ, flownLength_succ]
      simp only [flownLength, Finset.range_zero, Finset.sum_empty, zero_add]
      simp [flownNode, n1 0 1, n1 1 2 (by norm_num)]
      norm_num
  refine ⟨[⟨2, 0, 0⟩, ⟨1, 0, 0⟩, ⟨0, 0, 0⟩, ⟨-1, 0, 0⟩], by simp, ?_, ?_⟩
  · simp only [List.length_cons, List.length_nil]; rw [hlen 2 le_rfl]; norm_num
  · obtain ⟨b, sp, h1, h2⟩ := C31_valid_iff [⟨2, 0, 0⟩, ⟨1, 0, 0⟩, ⟨0, 0, 0⟩, ⟨-1, 0, 0⟩] 1 1 (by simp)
      (by norm_num)
    refine ⟨sp, ?_⟩
    rw [h1]
    congr 2
    rw [← Bool.not_eq_true, h2]
    rintro ⟨i, i1, i2, i3⟩
    simp only [List.length_cons, List.length_nil] at i1
    rw [hlen (i + 1) (by omega)] at i3
    rw [hlen i (by omega)] at i2
    have : i = 0 ∨ i = 1 := by omega
    rcases this with rfl | rfl
    · norm_num at i3
    · rcases i2 with h | h
      · omega
      · norm_num at h

/-! ## C32 -/

theorem loopM_build {A B : Type*} (f : A → Option B) (g : A → B) (l : List A)
    (h : ∀ a ∈ l, f a = some (g a)) :
    ∀ acc, loopM (fun (r : List B) a => (f a).map fun b => r ++ [b]) acc l = some (acc ++ l.map g) := by
  induction l with
  | nil => intro acc; simp [loopM]
  | cons a l ih =>
    intro acc
    simp only [loopM]
    rw [h a (by simp)]
    simp only [Option.map_some, Option.bind_some]
    rw [ih (fun b hb => h b (by simp [hb]))]
    simp

/-- **C32.** The message has 60 bins; bin `i` describes azimuth column `(i + 30) mod 60`, i.e. the
direction `6 i + 3` degrees clockwise from north: NaN exactly if that column is outside every field
of view, otherwise the compressed distance if it exceeds the minimum range, else `max + 0.01`. -/
theorem C32_obstacle_distances (hist : Histogram ℝ) (he : 0 < hist.eDim) (hz : hist.zDim = 60)
    (fovs : List (FOV ℝ)) (position : V3 ℝ) (yaw minr maxr : ℝ) :
    ∃ ranges, obstacleDistanceRanges hist fovs position yaw minr maxr = some ranges ∧
      ranges.length = 60 ∧ ∀ i : ℕ, i < 60 →
        let j := (i + 30) % 60
        ranges[i]? = some (
          if histogramIndexYawInsideFOV fovs (j : ℕ) position yaw = true then
            (if minr < hist.dist 0 j then some (hist.dist 0 j) else some (maxr + 1 / 100))
          else none) ∧
        SameDirection 360 (histogramIndexToPolar (K := ℝ) 0 (j : ℕ) 6 1).z (6 * (i : ℝ) + 3) := by
  let g : ℕ → Option ℝ := fun i =>
    if histogramIndexYawInsideFOV fovs ((i + 30) % 60 : ℕ) position yaw = true then
      (if minr < hist.dist 0 ((i + 30) % 60) then some (hist.dist 0 ((i + 30) % 60))
        else some (maxr + 1 / 100))
    else none
  have hbody : ∀ i : ℕ, (hist.getDist 0 ((i + 30) % 60 : ℕ)).map (fun dist =>
      if histogramIndexYawInsideFOV fovs ((i + 30) % 60 : ℕ) position yaw = true then
        some (if dist > minr then dist else maxr + 1 / 100) else none) = some (g i) := by
    intro i
    have := getDist_nat (h := hist) (e := 0) (z := (i + 30) % 60) he (by omega)
    rw [show ((0 : ℕ) : ℤ) = 0 from rfl] at this
    rw [this]
    simp only [Option.map_some, g]
    congr 1
    split_ifs <;> first | rfl | contradiction
  have hl := loopM_build (fun i : ℕ => (hist.getDist 0 ((i + 30) % 60 : ℕ)).map (fun dist =>
      if histogramIndexYawInsideFOV fovs ((i + 30) % 60 : ℕ) position yaw = true then
        some (if dist > minr then dist else maxr + 1 / 100) else none)) g (List.range 60)
        (fun i _ => hbody i) []
  refine ⟨(List.range 60).map g, ?_, by simp, ?_⟩
  · unfold obstacleDistanceRanges
    rw [show GRID_LENGTH_Z = 60 from rfl]
    rw [show [] ++ (List.range 60).map g = (List.range 60).map g from rfl] at hl
    rw [← hl]
    congr 1
    funext r i
    simp only [Option.map_map, Function.comp_def]
    congr 1
    funext dist
    by_cases hf : histogramIndexYawInsideFOV fovs ((i + 60 / 2) % 60 : ℕ) position yaw = true
    · rw [if_pos hf]
      have hf' : histogramIndexYawInsideFOV fovs ((i + 30) % 60 : ℕ) position yaw = true := hf
      rw [if_pos hf']
    · rw [if_neg hf]
      have hf' : ¬ histogramIndexYawInsideFOV fovs ((i + 30) % 60 : ℕ) position yaw = true := hf
      rw [if_neg hf']
  · intro i hi
    refine ⟨?_, ?_⟩
    · rw [List.getElem?_map, List.getElem?_range hi]; rfl
    · unfold histogramIndexToPolar SameDirection
      rcases Nat.lt_or_ge i 30 with h | h
      · refine ⟨0, ?_⟩
        have : (i + 30) % 60 = i + 30 := by omega
        rw [this]; push_cast; norm_num; ring
      · refine ⟨-1, ?_⟩
        have : (i + 30) % 60 = i - 30 := by omega
        rw [this]
        rw [Nat.cast_sub h]; push_cast; norm_num; ring

/-- No column is lost or duplicated. -/
theorem C32_bijective : Function.Bijective (fun i : Fin 60 => (⟨(i.1 + 30) % 60, Nat.mod_lt _ (by norm_num)⟩ : Fin 60)) := by
  constructor
  · intro a b h
    simp only [Fin.mk.injEq] at h
    ext; omega
  · intro b
    exact ⟨⟨(b.1 + 30) % 60, Nat.mod_lt _ (by norm_num)⟩, by ext; simp only; omega⟩

/-! ## C33 -/

/-- Distance needed to stop from speed `u`: constant speed while the acceleration ramps up with the
maximum jerk, then constant deceleration. -/
noncomputable def stoppingDistance (p : SpeedParams) (u : ℝ) : ℝ :=
  u * (p.acc_hor / p.jerk_max) + u ^ 2 / (2 * p.acc_hor)

/-- **C33.** For positive acceleration and jerk and a non-negative sensor range, the requested speed
never exceeds the mission speed (if one is set) or the cruise speed, and if it is non-negative the
vehicle can stop within the sensor range. -/
theorem C33_speed_limit (p : SpeedParams) (r : ℝ) (m : Flt ℝ) (ha : 0 < p.acc_hor)
    (hj : 0 < p.jerk_max) (hr : 0 ≤ r) :
    (∀ s, m = Flt.fin s → cruiseVelocity p r m ≤ s) ∧
    (m.isFinite = false → cruiseVelocity p r m ≤ p.xy_cruise) ∧
    (0 ≤ cruiseVelocity p r m → stoppingDistance p (cruiseVelocity p r m) ≤ r) ∧
    stoppingDistance p (limitedSpeed p r) = r ∧ 0 ≤ limitedSpeed p r := by
  set q := p.acc_hor / p.jerk_max with hq
  have hq0 : 0 < q := div_pos ha hj
  have hdisc : 0 ≤ (2 * p.acc_hor * q) * (2 * p.acc_hor * q) + 8 * p.acc_hor * r := by positivity
  set S := Real.sqrt ((2 * p.acc_hor * q) * (2 * p.acc_hor * q) + 8 * p.acc_hor * r) with hS
  have hSS : S * S = (2 * p.acc_hor * q) * (2 * p.acc_hor * q) + 8 * p.acc_hor * r :=
    Real.mul_self_sqrt hdisc
  have hS0 : 0 ≤ S := Real.sqrt_nonneg _
  have hl : limitedSpeed p r = (-(2 * p.acc_hor * q) + S) / 2 := by
    unfold limitedSpeed
    dsimp only
    rw [← hq, hS]
    congr 3 <;> ring_nf
  have hb : 0 < 2 * p.acc_hor * q := by positivity
  have hSb : 2 * p.acc_hor * q ≤ S := by
    by_contra hc; push Not at hc; nlinarith
  have hl0 : 0 ≤ limitedSpeed p r := by rw [hl]; linarith
  have hroot : limitedSpeed p r ^ 2 + 2 * p.acc_hor * q * limitedSpeed p r = 2 * p.acc_hor * r := by
    rw [hl]; nlinarith
  have hstop : ∀ u, stoppingDistance p u = (u ^ 2 + 2 * p.acc_hor * q * u) / (2 * p.acc_hor) := by
    intro u; unfold stoppingDistance; rw [← hq]; field_simp; ring
  have hle : cruiseVelocity p r m ≤ limitedSpeed p r := by
    unfold cruiseVelocity; exact min_le_right _ _
  refine ⟨?_, ?_, ?_, ?_, hl0⟩
  · rintro s rfl; unfold cruiseVelocity; exact min_le_left _ _
  · intro h
    unfold cruiseVelocity
    cases m with
    | fin s => simp [Flt.isFinite] at h
    | nan => exact min_le_left _ _
    | inf b => exact min_le_left _ _
  · intro h0
    rw [hstop, div_le_iff₀ (by positivity)]
    nlinarith
  · rw [hstop, hroot]; field_simp

/-- **C33, not slower than needed.** The speed asked for is the mission speed (without one, the
cruise speed) whenever the vehicle could stop from it within the sensor range; otherwise it is the
one non-negative speed whose stopping distance is the sensor range. -/
theorem C33_exact_speed (p : SpeedParams) (r : ℝ) (m : Flt ℝ) (ha : 0 < p.acc_hor)
    (hj : 0 < p.jerk_max) (hr : 0 ≤ r) (wanted : ℝ)
    (hw : (∀ s, m = Flt.fin s → wanted = s) ∧ (m.isFinite = false → wanted = p.xy_cruise)) (h0 : 0 ≤ wanted) :
    (stoppingDistance p wanted ≤ r → cruiseVelocity p r m = wanted) ∧
    (r < stoppingDistance p wanted →
      ∀ u, 0 ≤ u → (stoppingDistance p u = r ↔ u = cruiseVelocity p r m)) := by
  obtain ⟨-, -, -, hl, hl0⟩ := C33_speed_limit p r m ha hj hr
  have hq : 0 < p.acc_hor / p.jerk_max := div_pos ha hj
  have hmono : ∀ u v, 0 ≤ u → u < v → stoppingDistance p u < stoppingDistance p v := by
    intro u v hu huv
    unfold stoppingDistance
    have h1 : u * (p.acc_hor / p.jerk_max) < v * (p.acc_hor / p.jerk_max) := by nlinarith
    have h2 : u ^ 2 / (2 * p.acc_hor) ≤ v ^ 2 / (2 * p.acc_hor) :=
      div_le_div_of_nonneg_right (by nlinarith) (by positivity)
    linarith
  have hc : cruiseVelocity p r m = min wanted (limitedSpeed p r) := by
    unfold cruiseVelocity
    cases m with
    | fin s => rw [hw.1 s rfl]
    | nan => rw [hw.2 rfl]
    | inf b => rw [hw.2 rfl]
  constructor
  · intro h
    rw [hc, min_eq_left]
    by_contra hlt
    push Not at hlt
    have := hmono _ _ hl0 hlt
    linarith
  · intro h u hu
    have hlt : limitedSpeed p r ≤ wanted := by
      by_contra hlt
      push Not at hlt
      have := hmono _ _ h0 hlt
      linarith
    rw [hc, min_eq_right hlt]
    constructor
    · intro hs
      rcases lt_trichotomy u (limitedSpeed p r) with h' | h' | h'
      · have := hmono _ _ hu h'; linarith
      · exact h'
      · have := hmono _ _ hl0 h'; linarith
    · rintro rfl; exact hl

/-- Non-vacuity: 5 m/s² and 5 m/s³, 12.5 m of range: a mission speed of 3 m/s (stopping distance
3.9 m) is kept, one of 20 m/s (60 m) is not. -/
example : stoppingDistance ⟨5, 5, 4⟩ 3 ≤ 25 / 2 ∧ (25 / 2 : ℝ) < stoppingDistance ⟨5, 5, 4⟩ 20 := by
  unfold stoppingDistance; norm_num

/-! ## C34 -/

/-- **C34.** The reference point is either the goal itself — exactly when the goals coincide in the
plane (within 1 mm) or the vehicle is closer to the line than the cruise speed — or, at goal height,
the orthogonal projection of the position onto the line through the goals: no point of that line is
closer to the vehicle. -/
theorem C34_closest_point (goal prev position : V3 ℝ) (cruise : ℝ) :
    let c := closestPoint goal prev position cruise
    c.z = goal.z ∧
    ((goal.minus prev).normXY < 1 / 1000 → c = goal) ∧
    (c = goal ∨
      ((∃ t : ℝ, c.x = prev.x + t * (goal.x - prev.x) ∧ c.y = prev.y + t * (goal.y - prev.y)) ∧
       (c.x - position.x) * (goal.x - prev.x) + (c.y - position.y) * (goal.y - prev.y) = 0 ∧
       (∀ t : ℝ, (position.minus c).normXY ≤
          (position.minus ⟨prev.x + t * (goal.x - prev.x), prev.y + t * (goal.y - prev.y), goal.z⟩).normXY) ∧
       cruise ≤ (position.minus c).normXY)) := by
  intro c
  have hc : c = closestPoint goal prev position cruise := rfl
  unfold closestPoint at hc
  dsimp only at hc
  set d := goal.minus prev with hd
  have hdx : d.x = goal.x - prev.x := rfl
  have hdy : d.y = goal.y - prev.y := rfl
  split_ifs at hc with h1 h2 h2
  · exact ⟨by rw [hc], fun _ => hc, Or.inl hc⟩
  · have hne : ¬ d.normXY < 1 / 1000 := fun h => h2 (Or.inr h)
    have hn : 0 < d.normXY := by linarith
    have hnn : d.normXY * d.normXY = d.x * d.x + d.y * d.y := Real.mul_self_sqrt h1.le
    have hn2 : d.x * d.x + d.y * d.y ≠ 0 := h1.ne'
    have hcr : cruise ≤ (position.minus c).normXY := by
      rw [hc]; push Not at h2; exact h2.1
    set w := position.minus prev with hw
    have hwx : w.x = position.x - prev.x := rfl
    have hwy : w.y = position.y - prev.y := rfl
    have hs : ∀ v : ℝ, v / d.normXY * (d.x / d.normXY * w.x + d.y / d.normXY * w.y) =
        v * ((d.x * w.x + d.y * w.y) / (d.x * d.x + d.y * d.y)) := by
      intro v
      rw [← hnn, ← div_div]; ring
    rw [hs, hs] at hc
    set t0 := (d.x * w.x + d.y * w.y) / (d.x * d.x + d.y * d.y) with ht0
    have ht : t0 * (d.x * d.x + d.y * d.y) = d.x * w.x + d.y * w.y := by rw [ht0]; exact div_mul_cancel₀ _ hn2
    have hcx : c.x = prev.x + d.x * t0 := by rw [hc]
    have hcy : c.y = prev.y + d.y * t0 := by rw [hc]
    have hort : (c.x - position.x) * d.x + (c.y - position.y) * d.y = 0 := by
      rw [hcx, hcy]; rw [hwx, hwy] at ht; nlinarith
    refine ⟨by rw [hc], fun h => absurd h hne, Or.inr ⟨⟨t0, ?_, ?_⟩, ?_, ?_, hcr⟩⟩
    · rw [hcx, hdx]; ring
    · rw [hcy, hdy]; ring
    · rw [← hdx, ← hdy]; exact hort
    · intro t
      unfold V3.normXY
      apply Real.sqrt_le_sqrt
      show (position.x - c.x) * (position.x - c.x) + (position.y - c.y) * (position.y - c.y) ≤
        (position.x - (prev.x + t * (goal.x - prev.x))) * (position.x - (prev.x + t * (goal.x - prev.x))) +
        (position.y - (prev.y + t * (goal.y - prev.y))) * (position.y - (prev.y + t * (goal.y - prev.y)))
      rw [← hdx, ← hdy]
      have ex : position.x - (prev.x + t * d.x) = (position.x - c.x) + (t0 - t) * d.x := by rw [hcx]; ring
      have ey : position.y - (prev.y + t * d.y) = (position.y - c.y) + (t0 - t) * d.y := by rw [hcy]; ring
      rw [ex, ey]
      have h0 : (t0 - t) * ((position.x - c.x) * d.x + (position.y - c.y) * d.y) = 0 := by
        rw [show (position.x - c.x) * d.x + (position.y - c.y) * d.y =
          -((c.x - position.x) * d.x + (c.y - position.y) * d.y) by ring, hort]; ring
      nlinarith [mul_self_nonneg ((t0 - t) * d.x), mul_self_nonneg ((t0 - t) * d.y)]
  · exact ⟨by rw [hc], fun _ => hc, Or.inl hc⟩
  · exfalso
    apply h2; right
    have : d.x * d.x + d.y * d.y = 0 := le_antisymm (not_lt.1 h1) (by nlinarith [mul_self_nonneg d.x, mul_self_nonneg d.y])
    unfold V3.normXY; rw [this]; norm_num

/-- Non-vacuity of the projection case: previous goal at the origin, goal 10 m east, vehicle 5 m
north of the line: the reference point is (4, 0). -/
example : closestPoint ⟨10, 0, 3⟩ ⟨0, 0, 3⟩ ⟨4, 5, 1⟩ 3 = ⟨4, 0, 3⟩ := by
  have h10 : Real.sqrt 100 = 10 := by
    rw [show (100 : ℝ) = 10 * 10 by norm_num]; exact Real.sqrt_mul_self (by norm_num)
  have h5 : Real.sqrt 25 = 5 := by
    rw [show (25 : ℝ) = 5 * 5 by norm_num]; exact Real.sqrt_mul_self (by norm_num)
  unfold closestPoint V3.minus V3.normXY
  norm_num [h10, h5]

/-- **C34, which of the two.** Let `f` be the foot of the perpendicular from the vehicle to the
(horizontal) line through the goals, which are at least 1 mm apart.  At a horizontal distance of at
least the cruise speed the reference point is `f` at goal height, closer than that it is the goal. -/
theorem C34_which_point (goal prev position f : V3 ℝ) (cruise : ℝ)
    (hap : 1 / 1000 ≤ (goal.minus prev).normXY)
    (hline : ∃ t : ℝ, f.x = prev.x + t * (goal.x - prev.x) ∧ f.y = prev.y + t * (goal.y - prev.y))
    (hfoot : (f.x - position.x) * (goal.x - prev.x) + (f.y - position.y) * (goal.y - prev.y) = 0) :
    (cruise ≤ (position.minus f).normXY → closestPoint goal prev position cruise = ⟨f.x, f.y, goal.z⟩) ∧
    ((position.minus f).normXY < cruise → closestPoint goal prev position cruise = goal) := by
  obtain ⟨t, hfx, hfy⟩ := hline
  set d := goal.minus prev with hd
  have hdx : d.x = goal.x - prev.x := rfl
  have hdy : d.y = goal.y - prev.y := rfl
  have hn : 0 < d.normXY := by linarith
  have h1 : 0 < d.x * d.x + d.y * d.y := by
    by_contra h
    push Not at h
    have : d.normXY = 0 := Real.sqrt_eq_zero_of_nonpos h
    linarith
  have hnn : d.normXY * d.normXY = d.x * d.x + d.y * d.y := Real.mul_self_sqrt h1.le
  set w := position.minus prev with hw
  have hwx : w.x = position.x - prev.x := rfl
  have hwy : w.y = position.y - prev.y := rfl
  have ht : d.x * w.x + d.y * w.y = t * (d.x * d.x + d.y * d.y) := by
    rw [hfx, hfy, ← hdx, ← hdy] at hfoot
    rw [hwx, hwy]; nlinarith
  have hs : ∀ v : ℝ, v / d.normXY * (d.x / d.normXY * w.x + d.y / d.normXY * w.y) = t * v := by
    intro v
    have : v / d.normXY * (d.x / d.normXY * w.x + d.y / d.normXY * w.y) =
        v * ((d.x * w.x + d.y * w.y) / (d.normXY * d.normXY)) := by
      rw [← div_div]; ring
    rw [this, ht, hnn, mul_div_assoc, div_self h1.ne']; ring
  have hval : closestPoint goal prev position cruise =
      if (position.minus ⟨f.x, f.y, goal.z⟩).normXY < cruise ∨ d.normXY < 1 / 1000 then goal else ⟨f.x, f.y, goal.z⟩ := by
    unfold closestPoint
    dsimp only
    rw [← hd, if_pos h1, ← hw, hs, hs, hfx, hfy, ← hdx, ← hdy]
  have hsame : (position.minus ⟨f.x, f.y, goal.z⟩).normXY = (position.minus f).normXY := rfl
  rw [hsame] at hval
  constructor
  · intro h
    rw [hval, if_neg]
    rintro (h' | h') <;> linarith
  · intro h; rw [hval, if_pos (Or.inl h)]

/-- Non-vacuity: the perpendicular from (4, 5) to the line from the origin to (10, 0) ends in (4, 0). -/
example : ∃ t : ℝ, (4 : ℝ) = 0 + t * (10 - 0) ∧ (0 : ℝ) = 0 + t * (0 - 0) := ⟨2 / 5, by norm_num, by norm_num⟩

/-! ## C64: freshness of what is published -/

theorem plannerRun_length {K : Type*} [LinearOrder K] [Zero K] (inputs : ℕ → PlannerInputs K) (n : ℕ) :
    (plannerRun inputs n).2.length = n := by
  induction n with
  | zero => rfl
  | succ n ih => simp [plannerRun, ih]

/-- **C64.** While `CP_DIST` is positive every iteration publishes obstacle distances computed in
that very iteration; while it is negative nothing is published.  In every run, published distances
and the stored path stem from some earlier-or-current iteration. -/
theorem C64_fresh_when_enabled {K : Type*} [LinearOrder K] [Zero K] (inputs : ℕ → PlannerInputs K)
    (n : ℕ) :
    (∀ i, (plannerRun inputs (n + 1)).2[n]? = some (some i) → i ≤ n) ∧
    ((Flt.fin 0).lt (inputs n).cp_dist = true →
      (inputs n).cp_dist.lt (Flt.fin 0) = false → (plannerRun inputs (n + 1)).2[n]? = some (some n)) ∧
    ((inputs n).cp_dist.lt (Flt.fin 0) = true → (plannerRun inputs (n + 1)).2[n]? = some none) ∧
    ((inputs n).histogramEmpty = false → (plannerRun inputs (n + 1)).1.path = some n) ∧
    ((inputs n).histogramEmpty = true →
      (plannerRun inputs (n + 1)).1.path = (plannerRun inputs n).1.path) := by
  have hlast : (plannerRun inputs (n + 1)).2[n]? =
      some (publishLaserScan (inputs n).cp_dist (plannerIteration n (inputs n) (plannerRun inputs n).1)) := by
    have := plannerRun_length inputs n
    simp only [plannerRun]
    rw [List.getElem?_append_right (by omega)]
    simp [this]
  have hinv : ∀ m i, (plannerRun inputs m).1.distanceData = some i → i < m := by
    intro m
    induction m with
    | zero => intro i h; simp [plannerRun] at h
    | succ m ih =>
      intro i h
      simp only [plannerRun, plannerIteration] at h
      split_ifs at h
      · simp only [Option.some.injEq] at h; omega
      · have := ih i h; omega
  refine ⟨?_, ?_, ?_, ?_, ?_⟩
  · intro i h
    rw [hlast] at h
    simp only [Option.some.injEq, publishLaserScan, plannerIteration] at h
    split_ifs at h
    · simp only [Option.some.injEq] at h; omega
    · have := hinv n i h; omega
  · intro h h'; rw [hlast]; simp [publishLaserScan, plannerIteration, h, h']
  · intro h; rw [hlast]; simp [publishLaserScan, h]
  · intro h; simp [plannerRun, plannerIteration, h]
  · intro h; simp [plannerRun, plannerIteration, h]

/-- Finding: the two conditions on `CP_DIST` differ.  If it becomes 0 or NaN after having been
positive, the node keeps publishing the old distances for ever. -/
theorem C64_stale_obstacle_distances (v : Flt ℚ) (hv : v = Flt.fin 0 ∨ v = Flt.nan) (n : ℕ) :
    (plannerRun (fun i => ⟨if i = 0 then Flt.fin 4 else v, false⟩) (n + 1)).2[n]? = some (some 0) := by
  have hinv : ∀ m, (plannerRun (fun i => (⟨if i = 0 then Flt.fin 4 else v, false⟩ : PlannerInputs ℚ))
      (m + 1)).1.distanceData = some 0 := by
    intro m
    induction m with
    | zero => simp [plannerRun, plannerIteration, Flt.lt]
    | succ m ih =>
      rw [plannerRun]
      simp only [plannerIteration]
      rw [if_neg, ih]
      rcases hv with rfl | rfl <;> simp [Flt.lt]
  have hlen := plannerRun_length (fun i => (⟨if i = 0 then Flt.fin 4 else v, false⟩ : PlannerInputs ℚ)) n
  have h := hinv n
  rw [plannerRun] at h ⊢
  simp only at h ⊢
  rw [List.getElem?_append_right (by omega), hlen]
  simp only [Nat.sub_self, List.getElem?_cons_zero, publishLaserScan]
  rw [h]
  rcases hv with rfl | rfl
  · by_cases hn : n = 0 <;> simp [hn, Flt.lt]
  · by_cases hn : n = 0 <;> simp [hn, Flt.lt]

/-! ## C65 -/

/-- **C65.** A pixel of the histogram image is always representable in a byte; it is 0 for "no
obstacle", and a nearer obstacle is never darker than a farther one. -/
theorem C65_histogram_pixel (maxr : ℝ) (hm : 0 < maxr) :
    (∀ d, 0 ≤ histogramPixel d maxr ∧ histogramPixel d maxr ≤ 255) ∧
    (∀ d ≤ 1 / 100, histogramPixel d maxr = 0) ∧
    (∀ d1 d2, 1 / 100 < d1 → d1 ≤ d2 → histogramPixel d2 maxr ≤ histogramPixel d1 maxr) := by
  refine ⟨?_, ?_, ?_⟩
  · intro d
    unfold histogramPixel
    exact ⟨le_max_left _ _, max_le (by norm_num) (min_le_left _ _)⟩
  · intro d hd; unfold histogramPixel; dsimp only; rw [if_neg (not_lt.2 hd)]; norm_num
  · intro d1 d2 h1 h2
    unfold histogramPixel
    dsimp only
    rw [if_pos h1, if_pos (h1.trans_le h2)]
    have : 255 * d1 / maxr ≤ 255 * d2 / maxr := by
      rw [div_le_div_iff_of_pos_right hm]; linarith
    exact max_le_max le_rfl (min_le_min le_rfl (by linarith))

/-- **C65, the scale.** Between 1 cm and the sensor range the brightness is the linear scale with 255
at distance 0 and 0 at the sensor range, so a nearer obstacle is strictly brighter; beyond the
sensor range it is 0. -/
theorem C65_linear_scale (maxr : ℝ) (hm : 0 < maxr) :
    (∀ d, 1 / 100 < d → d ≤ maxr → histogramPixel d maxr = 255 * (1 - d / maxr)) ∧
    (∀ d1 d2, 1 / 100 < d1 → d1 < d2 → d2 ≤ maxr → histogramPixel d2 maxr < histogramPixel d1 maxr) ∧
    (∀ d, maxr ≤ d → histogramPixel d maxr = 0) := by
  have hlin : ∀ d, 1 / 100 < d → d ≤ maxr → histogramPixel d maxr = 255 * (1 - d / maxr) := by
    intro d h1 h2
    unfold histogramPixel
    dsimp only
    rw [if_pos h1]
    have h3 : 0 ≤ d / maxr := div_nonneg (by linarith) hm.le
    have h4 : d / maxr ≤ 1 := (div_le_one hm).2 h2
    have h5 : 255 * d / maxr = 255 * (d / maxr) := by ring
    rw [h5, min_eq_right (by linarith), max_eq_right (by linarith)]
    ring
  refine ⟨hlin, ?_, ?_⟩
  · intro d1 d2 h1 h2 h3
    rw [hlin d1 h1 (by linarith), hlin d2 (by linarith) h3]
    have : d1 / maxr < d2 / maxr := by rw [div_lt_div_iff_of_pos_right hm]; exact h2
    linarith
  · intro d h
    unfold histogramPixel
    dsimp only
    by_cases h1 : d > 1 / 100
    · rw [if_pos h1]
      have h4 : 1 ≤ d / maxr := (one_le_div hm).2 h
      have h5 : 255 * d / maxr = 255 * (d / maxr) := by ring
      rw [h5]
      exact max_eq_left (le_trans (min_le_right _ _) (by linarith))
    · rw [if_neg h1]; norm_num

end Avoidance
