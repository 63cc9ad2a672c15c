import Verif.RunDefinedProps
import Verif.SmoothProps

/-!
# From the sensor to the plan: an obstacle that was seen is charged and avoided (C87)
-/

namespace Avoidance

variable {Q : PriorityQueue (Candidate ℝ) Candidate.lt}

/-! ## Specification -/

/-- The 2° cell of the direction `α` above the horizon and `β` clockwise from north (`C24_cell_of_direction`). -/
noncomputable def fineCell (α β : ℝ) : ℤ × ℤ := (⌊(wrap180 β + 180) / 2⌋, ⌊(α + 90) / 2⌋)

/-- Row and column of the 6° cell of that direction in histogram and cost matrix. -/
noncomputable def coarseRow (α : ℝ) : ℕ := ⌊(α + 90) / 6⌋.toNat
/-- See `coarseRow`. -/
noncomputable def coarseCol (β : ℝ) : ℕ := ⌊(wrap180 β + 180) / 6⌋.toNat

/-- Number of directions whose cost is at most `x`. -/
noncomputable def cheapDirections (M : ℕ → ℕ → ℝ) (x : ℝ) : ℕ :=
  ((Finset.range 30 ×ˢ Finset.range 60).filter fun c => M c.1 c.2 ≤ x).card

/-! ## Proofs -/

theorem floor_div_three (t : ℝ) : ⌊t / 6⌋ = ⌊t / 2⌋ / 3 := by
  have : t / 6 = (t / 2) / ((3 : ℕ) : ℝ) := by push_cast; ring
  rw [this, Int.floor_div_natCast]
  rfl

/-- The 2° cells nest in the 6° cells. -/
theorem cells_nest (p : PolarPoint ℝ) :
    polarToHistogramIndex p 6 = ((polarToHistogramIndex p 2).1 / 3, (polarToHistogramIndex p 2).2 / 3) := by
  unfold polarToHistogramIndex
  dsimp only
  have h1 : ⌊(wrapPolar p).e / ((6 : ℕ) : ℝ) + 90 / ((6 : ℕ) : ℝ)⌋ = ⌊(wrapPolar p).e / ((2 : ℕ) : ℝ) + 90 / ((2 : ℕ) : ℝ)⌋ / 3 := by
    have := floor_div_three ((wrapPolar p).e + 90)
    rw [add_div, add_div] at this
    exact_mod_cast this
  have h2 : ⌊(wrapPolar p).z / ((6 : ℕ) : ℝ) + 180 / ((6 : ℕ) : ℝ)⌋ = ⌊(wrapPolar p).z / ((2 : ℕ) : ℝ) + 180 / ((2 : ℕ) : ℝ)⌋ / 3 := by
    have := floor_div_three ((wrapPolar p).z + 180)
    rw [add_div, add_div] at this
    exact_mod_cast this
  rw [h1, h2]
  generalize ⌊(wrapPolar p).e / ((2 : ℕ) : ℝ) + 90 / ((2 : ℕ) : ℝ)⌋ = a
  generalize ⌊(wrapPolar p).z / ((2 : ℕ) : ℝ) + 180 / ((2 : ℕ) : ℝ)⌋ = b
  refine Prod.ext ?_ ?_ <;> dsimp only <;> norm_num <;> split_ifs <;> omega

theorem wrap180_range (x : ℝ) : -180 ≤ wrap180 x ∧ wrap180 x < 180 := by
  obtain ⟨⟨a1, a2, -⟩, -⟩ := C01_wrap180_canonical x
  exact ⟨a1, a2⟩

theorem coarse_bounds (α β : ℝ) (h1 : -48 ≤ α) (h2 : α < 48) :
    7 ≤ coarseRow α ∧ coarseRow α ≤ 22 ∧ coarseCol β < 60 ∧
    ((coarseCol β : ℤ), (coarseRow α : ℤ)) = ((fineCell α β).1 / 3, (fineCell α β).2 / 3) := by
  obtain ⟨w1, w2⟩ := wrap180_range β
  have a1 : (7 : ℤ) ≤ ⌊(α + 90) / 6⌋ := Int.le_floor.mpr (by push_cast; linarith)
  have a2 : ⌊(α + 90) / 6⌋ < 23 := Int.floor_lt.mpr (by push_cast; linarith)
  have b1 : (0 : ℤ) ≤ ⌊(wrap180 β + 180) / 6⌋ := Int.le_floor.mpr (by push_cast; linarith)
  have b2 : ⌊(wrap180 β + 180) / 6⌋ < 60 := Int.floor_lt.mpr (by push_cast; linarith)
  unfold coarseRow coarseCol fineCell
  refine ⟨by omega, by omega, by omega, ?_⟩
  rw [Int.toNat_of_nonneg b1, Int.toNat_of_nonneg (by omega), floor_div_three, floor_div_three]

/-- Points in a 6° cell of a processed cloud: at most nine. -/
theorem pointsInCell_le_nine (c : CloudParams) (hm : 1 ≤ c.min_points) (old : List (AgedPoint ℝ))
    (clouds : List (List (V3 (Flt ℝ)))) (out : List (AgedPoint ℝ)) (h : processPointcloud c old clouds = some out) (e z : ℕ) :
    (pointsInCell out c.position e z).length ≤ 9 := by
  have hn := C24_one_per_cell c hm old clouds out h
  have hsub : ((pointsInCell out c.position e z).map (cellOf c)).Nodup := by
    unfold pointsInCell
    have : (out.map (fun a => cellOf c a.p)) = (out.map (·.p)).map (cellOf c) := by rw [List.map_map]; rfl
    rw [this] at hn
    exact hn.sublist (List.Sublist.map _ List.filter_sublist)
  have hin : ∀ k ∈ (pointsInCell out c.position e z).map (cellOf c),
      k ∈ (Finset.Icc (3 * (z : ℤ)) (3 * z + 2) ×ˢ Finset.Icc (3 * (e : ℤ)) (3 * e + 2)) := by
    intro k hk
    obtain ⟨p, hp, rfl⟩ := List.mem_map.mp hk
    unfold pointsInCell at hp
    rw [List.mem_filter] at hp
    have h6 := of_decide_eq_true hp.2
    rw [cells_nest] at h6
    have e2 : cellOf c p = polarToHistogramIndex (cartesianToPolarHistogram p c.position) 2 := rfl
    rw [e2, Finset.mem_product, Finset.mem_Icc, Finset.mem_Icc]
    obtain ⟨q1, q2⟩ := Prod.mk.inj h6
    omega
  have hcard := List.toFinset_card_of_nodup hsub
  rw [List.length_map] at hcard
  rw [← hcard]
  calc _ ≤ (Finset.Icc (3 * (z : ℤ)) (3 * z + 2) ×ˢ Finset.Icc (3 * (e : ℤ)) (3 * e + 2)).card := by
        refine Finset.card_le_card ?_
        intro k hk
        exact hin k (List.mem_toFinset.mp hk)
    _ = 9 := by
        rw [Finset.card_product, Int.card_Icc, Int.card_Icc]
        have a : (3 * (z : ℤ) + 2 + 1 - 3 * z) = 3 := by ring
        have b : (3 * (e : ℤ) + 2 + 1 - 3 * e) = 3 := by ring
        rw [a, b]
        rfl

theorem distSq_comm (a b : V3 ℝ) : distSq a b = distSq b a := by unfold distSq; ring

theorem distSq_nonneg (a b : V3 ℝ) : 0 ≤ distSq a b := by
  unfold distSq
  nlinarith [mul_self_nonneg (a.x - b.x), mul_self_nonneg (a.y - b.y), mul_self_nonneg (a.z - b.z)]

theorem sum_lt_of_lt (l : List ℝ) (m : ℝ) (hne : l ≠ []) (h : ∀ x ∈ l, x < m) : l.sum / l.length < m := by
  have hlen : 0 < (l.length : ℝ) := by exact_mod_cast List.length_pos_of_ne_nil hne
  rw [div_lt_iff₀ hlen]
  have : l.sum < (l.map fun _ => m).sum := by
    have := List.sum_lt_sum_of_ne_nil hne (fun x => x) (fun _ => m) h
    simpa using this
  rw [List.map_const', List.sum_replicate, nsmul_eq_mul] at this
  linarith

theorem le_sum_of_mem (l : List ℝ) (h0 : ∀ x ∈ l, 0 ≤ x) (x : ℝ) (hx : x ∈ l) : x ≤ l.sum :=
  List.single_le_sum h0 x hx

/-- A cell with a point of the processed cloud shows in the histogram. -/
theorem occupied_of_mem (c : CloudParams) (hm : 1 ≤ c.min_points) (old : List (AgedPoint ℝ))
    (clouds : List (List (V3 (Flt ℝ)))) (out : List (AgedPoint ℝ)) (h : processPointcloud c old clouds = some out)
    (hmax : 0 ≤ c.max_range) (α β : ℝ) (h1 : -48 ≤ α) (h2 : α < 48) (a : AgedPoint ℝ) (ha : a ∈ out)
    (hcell : cellOf c a.p = fineCell α β) (hfar : 1 / 1000 ≤ distanceTo c.position a.p) (hh : Histogram ℝ)
    (hgen : generateNewHistogram (Histogram.new 6) out c.position = some hh) :
    fltMin < hh.dist (coarseRow α) (coarseCol β) ∧ hh.dist (coarseRow α) (coarseCol β) < c.max_range := by
  obtain ⟨b1, b2, b3, b4⟩ := coarse_bounds α β h1 h2
  obtain ⟨h', g1, g2⟩ := C25_mean_distance out c.position
  rw [hgen] at g1
  obtain rfl := Option.some.inj g1
  have g3 := g2 (coarseRow α) (coarseCol β) (by omega) b3
  obtain ⟨hd, e1, d1, d2⟩ := newHistogram_dims out c.position
  rw [show ALPHA_RES = 6 from rfl, hgen] at e1
  obtain rfl := Option.some.inj e1
  rw [getDist_nat (by rw [d1]; omega) (by rw [d2]; exact b3)] at g3
  have hmem : a.p ∈ pointsInCell out c.position (coarseRow α) (coarseCol β) := by
    unfold pointsInCell
    rw [List.mem_filter]
    refine ⟨List.mem_map_of_mem ha, decide_eq_true ?_⟩
    rw [cells_nest, b4]
    have e2 : polarToHistogramIndex (cartesianToPolarHistogram a.p c.position) 2 = fineCell α β := hcell
    rw [e2]
  have hne : pointsInCell out c.position (coarseRow α) (coarseCol β) ≠ [] := List.ne_nil_of_mem hmem
  rw [if_neg hne] at g3
  have g4 := Option.some.inj g3
  have hnine := pointsInCell_le_nine c hm old clouds out h (coarseRow α) (coarseCol β)
  have hrange := C24_range c hm old clouds out h
  have hpos : ∀ x ∈ (pointsInCell out c.position (coarseRow α) (coarseCol β)).map (distanceTo c.position), 0 ≤ x := by
    intro x hx
    obtain ⟨p, -, rfl⟩ := List.mem_map.mp hx
    exact Real.sqrt_nonneg _
  rw [g4]
  constructor
  · have hs := le_sum_of_mem _ hpos _ (List.mem_map_of_mem (f := distanceTo c.position) hmem)
    have hlen : 0 < ((pointsInCell out c.position (coarseRow α) (coarseCol β)).length : ℝ) := by
      exact_mod_cast List.length_pos_of_ne_nil hne
    rw [lt_div_iff₀ hlen]
    have h9 : ((pointsInCell out c.position (coarseRow α) (coarseCol β)).length : ℝ) ≤ 9 := by exact_mod_cast hnine
    have hf : fltMin < 1 / 10000 := by unfold fltMin; norm_num
    have hf0 : 0 < fltMin := by unfold fltMin; positivity
    nlinarith
  · have e3 : ((pointsInCell out c.position (coarseRow α) (coarseCol β)).length : ℝ) =
        ((((pointsInCell out c.position (coarseRow α) (coarseCol β)).map (distanceTo c.position)).length : ℕ) : ℝ) := by
      rw [List.length_map]
    rw [e3]
    refine sum_lt_of_lt _ _ (by simpa using hne) ?_
    intro x hx
    obtain ⟨p, hp, rfl⟩ := List.mem_map.mp hx
    unfold pointsInCell at hp
    rw [List.mem_filter, List.mem_map] at hp
    obtain ⟨⟨o, ho, rfl⟩, -⟩ := hp
    unfold distanceTo
    rw [distSq_comm, Real.sqrt_lt' (by
      rcases hmax.eq_or_lt with h0 | h0
      · have := (hrange o ho).1
        rw [← h0] at this
        have := distSq_nonneg c.position o.p
        linarith
      · exact h0)]
    rw [sq]
    exact (hrange o ho).1

/-- The histogram of the processed cloud shows a seen obstacle. -/
theorem seen_in_histogram (c : CloudParams) (hm : 1 ≤ c.min_points) (old : List (AgedPoint ℝ))
    (clouds : List (List (V3 (Flt ℝ)))) (out : List (AgedPoint ℝ)) (h : processPointcloud c old clouds = some out)
    (hmin : 1 / 1000 ≤ c.min_range) (hmax : 0 ≤ c.max_range) (α β : ℝ) (h1 : -48 ≤ α) (h2 : α < 48)
    (hseen : c.min_points ≤ newCount c clouds (fineCell α β)) (hh : Histogram ℝ)
    (hgen : generateNewHistogram (Histogram.new 6) out c.position = some hh) :
    fltMin < hh.dist (coarseRow α) (coarseCol β) ∧ hh.dist (coarseRow α) (coarseCol β) < c.max_range := by
  obtain ⟨a, ha, hage, hcell⟩ := (C24_complete c hm old clouds out h).1 _ hseen
  -- the new point is farther than the minimum range
  have hnew : a.p ∈ usableNew c clouds := by
    have hclouds : clouds ≠ [] := by
      rintro rfl
      unfold processPointcloud at h
      simp at h
    obtain ⟨out', o1, o2⟩ := C24_sound c hm old clouds hclouds
    rw [h] at o1
    obtain rfl := Option.some.inj o1
    rcases o2 a ha with ⟨-, x, -⟩ | ⟨o, -, x1, -, -, x4⟩
    · exact x
    · exfalso
      rw [← x1, hcell] at x4
      omega
  have hfar : c.min_range ≤ distanceTo c.position a.p := by
    unfold usableNew at hnew
    rw [List.mem_filter] at hnew
    have := (of_decide_eq_true hnew.2).1
    unfold distanceTo
    rw [distSq_comm]
    refine Real.le_sqrt_of_sq_le ?_
    rw [sq]
    exact this.le
  exact occupied_of_mem c hm old clouds out h hmax α β h1 h2 a ha hcell (hmin.trans hfar) hh hgen

theorem isEmpty_false {hh : Histogram ℝ} (d1 : hh.eDim = 30) (d2 : hh.zDim = 60) {e z : ℕ} (he : e < 30) (hz : z < 60)
    (h : fltMin < hh.dist e z) : hh.isEmpty fltMin = false := by
  cases hb : hh.isEmpty fltMin with
  | false => rfl
  | true =>
    have := (Histogram.C09_isEmpty_iff hh fltMin (by rw [d1]; norm_num) (by rw [d2]; norm_num)).mp hb e z _
      (getDist_nat (by rw [d1]; exact he) (by rw [d2]; exact hz))
    exact absurd this (not_le.mpr h)

/-- **C87, charged.** Let enough usable points for one area (2° × 2°) be seen in a direction up to 48° above or below the horizon. Then the
run makes a plan, and the cost of that direction exceeds the cost of an obstacle at the end of the sensor range, whatever was
remembered before and whatever else is seen. -/
theorem C87_charged (es : List LpEvent) (now : ℝ) (s s' : LPlanner) (h : loopM (lpStep Q) lpInit es = some s)
    (hrun : lpStep Q s (.run now) = some s') (c : LpConfig) (hc : lastConfig es = some c) (p v : V3 ℝ) (q : Quat ℝ)
    (hs : lastState es = some (p, v, q)) (hp : 1 ≤ c.min_num_points_per_cell) (hmin : 1 / 1000 ≤ c.min_sensor_range)
    (hmax : 0 ≤ c.max_sensor_range) (c1 : 0 ≤ c.cost.yaw) (c2 : 0 ≤ c.cost.pitch) (c3 : 0 ≤ c.cost.velocity)
    (hm : c.smoothing_margin ≤ 180) (hg : goalAfter es ≠ p) (α β : ℝ) (h1 : -48 ≤ α) (h2 : α < 48)
    (hseen : c.min_num_points_per_cell ≤ newCount (s.cloudParams now) (lastClouds es) (fineCell α β)) :
    s'.last_path_time = now ∧ 0 < s'.histogram.dist (coarseRow α) (coarseCol β) ∧
    s'.histogram.dist (coarseRow α) (coarseCol β) < c.max_sensor_range ∧
    ∃ M, getCostMatrix s'.histogram (goalAfter es) p v c.cost c.smoothing_margin s'.closest_pt c.max_sensor_range
      c.min_sensor_range = some M ∧ distanceCost c.cost c.max_sensor_range < M (coarseRow α) (coarseCol β) := by
  have k := knows es s h
  obtain ⟨k1, k2, -, -, k5⟩ := k.state p v q hs
  have kc := k.config c hc
  obtain ⟨out, hh, d, st, t, hsp⟩ := run_spec (show s.run Q now = some s' from hrun)
  have hseen' : (s.cloudParams now).min_points ≤ newCount (s.cloudParams now) s.clouds (fineCell α β) := by
    rw [clouds_known es s h]
    show s.min_num_points_per_cell ≤ _
    rw [kc.p5]
    exact hseen
  obtain ⟨l1, l2⟩ := seen_in_histogram (s.cloudParams now) (by show 1 ≤ s.min_num_points_per_cell; rw [kc.p5]; exact hp) s.cloud s.clouds
    out hsp.cloud (by show _ ≤ s.min_sensor_range; rw [kc.p2]; exact hmin) (by show _ ≤ s.max_sensor_range; rw [kc.p1]; exact hmax)
    α β h1 h2 hseen' hh hsp.hist
  obtain ⟨b1, b2, b3, -⟩ := coarse_bounds α β h1 h2
  obtain ⟨hd, e1, d1, d2⟩ := newHistogram_dims out s.position
  rw [hsp.hist] at e1
  obtain rfl := Option.some.inj e1
  obtain ⟨t1, -, -⟩ := hsp.planned (isEmpty_false d1 d2 (by omega) b3 l1)
  have eh : s'.histogram = hh := by rw [hsp.eq]
  have et : s'.last_path_time = t := by rw [hsp.eq]
  have hpos : 0 < hh.dist (coarseRow α) (coarseCol β) := lt_trans (by unfold fltMin; positivity) l1
  have l2' : hh.dist (coarseRow α) (coarseCol β) < c.max_sensor_range := by
    rw [← kc.p1]
    exact l2
  rw [eh, et]
  refine ⟨t1, hpos, l2', ?_⟩
  obtain ⟨M, hM, hM2⟩ := C29_horizon_obstacles_charged hh d1 d2 (goalAfter es) p v c.cost c.smoothing_margin s'.closest_pt
    c.max_sensor_range c.min_sensor_range hg c1 c2 c3 hm
  refine ⟨M, hM, lt_of_lt_of_le ?_ (hM2 _ b1 b2 _ b3)⟩
  exact (C28_obstacle_cost c.cost).2.2.2 _ _ hpos l2'

/-! ### Candidates -/

theorem countP_cheap (M : ℕ → ℕ → ℝ) (x : ℝ) :
    (allCandidates M 30 60).countP (fun c => decide (c.cost ≤ x)) = cheapDirections M x := by
  have e : allCandidates M 30 60 = (cellList (List.range 30) 60).map fun c => ⟨M c.1 c.2,
      (histogramIndexToPolar (K := ℝ) c.1 c.2 6 1).e, (histogramIndexToPolar (K := ℝ) c.1 c.2 6 1).z⟩ := by
    unfold allCandidates cellList
    rw [List.map_flatMap]
    simp only [List.map_map]
    rfl
  rw [e, List.countP_map, List.countP_eq_length_filter]
  unfold cheapDirections
  have hn : (cellList (List.range 30) 60).Nodup := nodup_cellList List.nodup_range _
  rw [← List.toFinset_card_of_nodup (hn.filter _)]
  congr 1
  ext c
  rw [List.mem_toFinset, List.mem_filter, mem_cellList, Finset.mem_filter, Finset.mem_product]
  simp

theorem not_best_of_cheap {M : ℕ → ℕ → ℝ} {n : ℕ} {best : List (Candidate ℝ)} (hb : IsBest n (allCandidates M 30 60) best)
    (x : ℝ) (hn : n ≤ cheapDirections M x) : ∀ b ∈ best, b.cost ≤ x := by
  obtain ⟨l, -, rest, hperm, hle⟩ := hb
  intro b hbm
  by_contra hlt
  push Not at hlt
  have hcount := hperm.countP_eq (fun c => decide (c.cost ≤ x))
  rw [List.countP_append, countP_cheap] at hcount
  have hb1 : best.countP (fun c => decide (c.cost ≤ x)) < best.length := by
    rw [lt_iff_le_and_ne]
    refine ⟨List.countP_le_length, ?_⟩
    intro he
    rw [List.countP_eq_length] at he
    have := of_decide_eq_true (he b hbm)
    linarith
  have hr : 0 < rest.countP (fun c => decide (c.cost ≤ x)) := by omega
  rw [List.countP_pos_iff] at hr
  obtain ⟨y, hy, hy2⟩ := hr
  have := hle b hbm y hy
  have := of_decide_eq_true hy2
  linarith

theorem indexToPolar_inj {e z e' z' : ℕ} (h1 : (histogramIndexToPolar (K := ℝ) e z 6 1).e = (histogramIndexToPolar (K := ℝ) e' z' 6 1).e)
    (h2 : (histogramIndexToPolar (K := ℝ) e z 6 1).z = (histogramIndexToPolar (K := ℝ) e' z' 6 1).z) : e = e' ∧ z = z' := by
  unfold histogramIndexToPolar at h1 h2
  dsimp only at h1 h2
  have a : ((e : ℤ) * (6 : ℕ) + (6 : ℕ) / 2 - 90 : ℤ) = (e' : ℤ) * (6 : ℕ) + (6 : ℕ) / 2 - 90 := by exact_mod_cast h1
  have b : ((z : ℤ) * (6 : ℕ) + (6 : ℕ) / 2 - 180 : ℤ) = (z' : ℤ) * (6 : ℕ) + (6 : ℕ) / 2 - 180 := by exact_mod_cast h2
  omega

theorem centre_eq (e z : ℕ) : (histogramIndexToPolar (K := ℝ) e z 6 1).e = 6 * e - 87 ∧
    (histogramIndexToPolar (K := ℝ) e z 6 1).z = 6 * z - 177 := by
  unfold histogramIndexToPolar
  dsimp only
  constructor <;> push_cast <;> norm_num <;> ring

/-- The step of the tree in the direction of the centre of a cell is in no other direction. -/
theorem step_inj {e z e' z' : ℕ} (he : e < 30) (hz : z < 60) (he' : e' < 30) (hz' : z' < 60) {d : ℝ} (hd : 0 < d) (o : V3 ℝ)
    (h : polarHistogramToCartesian ⟨(histogramIndexToPolar (K := ℝ) e z 6 1).e, (histogramIndexToPolar (K := ℝ) e z 6 1).z, d⟩ o =
      polarHistogramToCartesian ⟨(histogramIndexToPolar (K := ℝ) e' z' 6 1).e, (histogramIndexToPolar (K := ℝ) e' z' 6 1).z, d⟩ o) :
    e = e' ∧ z = z' := by
  have key : ∀ e z : ℕ, e < 30 → z < 60 → cartesianToPolarHistogram (polarHistogramToCartesian ⟨(histogramIndexToPolar (K := ℝ) e z 6 1).e,
      (histogramIndexToPolar (K := ℝ) e z 6 1).z, d⟩ o) o = ⟨(histogramIndexToPolar (K := ℝ) e z 6 1).e,
      (histogramIndexToPolar (K := ℝ) e z 6 1).z, d⟩ := by
    intro e z he hz
    obtain ⟨c1, c2⟩ := centre_eq e z
    have e1 : (e : ℝ) ≤ 29 := by exact_mod_cast (by omega : e ≤ 29)
    have z1 : (z : ℝ) ≤ 59 := by exact_mod_cast (by omega : z ≤ 59)
    have e0 : (0 : ℝ) ≤ e := Nat.cast_nonneg e
    have z0 : (0 : ℝ) ≤ z := Nat.cast_nonneg z
    refine C05_polar_cartesian_round_trip _ o hd ?_ ?_ ?_ ?_ <;> dsimp only <;> first | rw [c1]; linarith | rw [c2]; linarith
  have h3 := key e z he hz
  rw [h, key e' z' he' hz'] at h3
  have a := congrArg PolarPoint.e h3
  have b := congrArg PolarPoint.z h3
  exact indexToPolar_inj a.symm b.symm

/-- In the situation of `C87_charged` the histogram of the run is not empty. -/
theorem seen_plans (es : List LpEvent) (now : ℝ) (s s' : LPlanner) (h : loopM (lpStep Q) lpInit es = some s)
    (hrun : lpStep Q s (.run now) = some s') (c : LpConfig) (hc : lastConfig es = some c)
    (hp : 1 ≤ c.min_num_points_per_cell) (hmin : 1 / 1000 ≤ c.min_sensor_range) (hmax : 0 ≤ c.max_sensor_range)
    (α β : ℝ) (h1 : -48 ≤ α) (h2 : α < 48)
    (hseen : c.min_num_points_per_cell ≤ newCount (s.cloudParams now) (lastClouds es) (fineCell α β)) :
    ∃ e z v, s'.histogram.getDist e z = some v ∧ fltMin < v := by
  have k := knows es s h
  have kc := k.config c hc
  obtain ⟨out, hh, d, st, t, hsp⟩ := run_spec (show s.run Q now = some s' from hrun)
  obtain ⟨b1, b2, b3, -⟩ := coarse_bounds α β h1 h2
  obtain ⟨hd', e1, d1, d2⟩ := newHistogram_dims out s.position
  rw [hsp.hist] at e1
  obtain rfl := Option.some.inj e1
  have eh : s'.histogram = hh := by rw [hsp.eq]
  have hseen' : (s.cloudParams now).min_points ≤ newCount (s.cloudParams now) s.clouds (fineCell α β) := by
    rw [clouds_known es s h]
    show s.min_num_points_per_cell ≤ _
    rw [kc.p5]
    exact hseen
  obtain ⟨l1, -⟩ := seen_in_histogram (s.cloudParams now) (by show 1 ≤ s.min_num_points_per_cell; rw [kc.p5]; exact hp) s.cloud s.clouds
    out hsp.cloud (by show _ ≤ s.min_sensor_range; rw [kc.p2]; exact hmin) (by show _ ≤ s.max_sensor_range; rw [kc.p1]; exact hmax)
    α β h1 h2 hseen' hh hsp.hist
  exact ⟨_, _, _, by rw [eh]; exact getDist_nat (by omega) (by omega), l1⟩

/-- The nodes next to the vehicle and the first leg of the path are in directions of other cells. -/
theorem avoided_cells (es : List LpEvent) (now : ℝ) (s s' : LPlanner) (h : loopM (lpStep Q) lpInit es = some s)
    (hrun : lpStep Q s (.run now) = some s') (c : LpConfig) (hc : lastConfig es = some c) (p v : V3 ℝ) (q : Quat ℝ)
    (hs : lastState es = some (p, v, q)) (ha : GoalApplied es) (hp : 1 ≤ c.min_num_points_per_cell)
    (hmin : 1 / 1000 ≤ c.min_sensor_range) (hmax : 0 ≤ c.max_sensor_range) (c1 : 0 ≤ c.cost.yaw) (c2 : 0 ≤ c.cost.pitch)
    (c3 : 0 ≤ c.cost.velocity) (hm : c.smoothing_margin ≤ 180) (hg : goalAfter es ≠ p) (hch : 0 < c.children_per_node)
    (hd : 0 < c.tree_node_distance) (α β : ℝ) (h1 : -48 ≤ α) (h2 : α < 48)
    (hseen : c.min_num_points_per_cell ≤ newCount (s.cloudParams now) (lastClouds es) (fineCell α β)) (M : ℕ → ℕ → ℝ)
    (hM : getCostMatrix s'.histogram (goalAfter es) p v c.cost c.smoothing_margin s'.closest_pt c.max_sensor_range
      c.min_sensor_range = some M)
    (hcheap : c.children_per_node ≤ cheapDirections M (distanceCost c.cost c.max_sensor_range)) :
    (∀ n ∈ s'.star.tree, n.depth = 1 → ∃ e z : ℕ, e < 30 ∧ z < 60 ∧ (e, z) ≠ (coarseRow α, coarseCol β) ∧
      n.pos = polarHistogramToCartesian ⟨6 * e - 87, 6 * z - 177, c.tree_node_distance⟩ p) ∧
    (∀ pre first, s'.output.2.2 = pre ++ [first, p] → ∃ e z : ℕ, e < 30 ∧ z < 60 ∧ (e, z) ≠ (coarseRow α, coarseCol β) ∧
      first = polarHistogramToCartesian ⟨6 * e - 87, 6 * z - 177, c.tree_node_distance⟩ p) := by
  have k := knows es s h
  obtain ⟨k1, k2, -, -, k5⟩ := k.state p v q hs
  have kc := k.config c hc
  obtain ⟨out, hh, d, st, t, hsp⟩ := run_spec (show s.run Q now = some s' from hrun)
  obtain ⟨-, hpos, hlt, M', hM', hcost⟩ := C87_charged es now s s' h hrun c hc p v q hs hp hmin hmax c1 c2 c3 hm hg α β h1 h2 hseen
  rw [hM] at hM'
  obtain rfl := Option.some.inj hM'
  obtain ⟨b1, b2, b3, -⟩ := coarse_bounds α β h1 h2
  obtain ⟨hd', e1, d1, d2⟩ := newHistogram_dims out s.position
  rw [hsp.hist] at e1
  obtain rfl := Option.some.inj e1
  have eh : s'.histogram = hh := by rw [hsp.eq]
  have est : s'.star = st := by rw [hsp.eq]
  have ecp : s'.closest_pt = closestPoint s.goal s.prev_goal s.position s.px4.xy_cruise := by rw [hsp.eq]
  have hseen' : (s.cloudParams now).min_points ≤ newCount (s.cloudParams now) s.clouds (fineCell α β) := by
    rw [clouds_known es s h]
    show s.min_num_points_per_cell ≤ _
    rw [kc.p5]
    exact hseen
  obtain ⟨l1, -⟩ := seen_in_histogram (s.cloudParams now) (by show 1 ≤ s.min_num_points_per_cell; rw [kc.p5]; exact hp) s.cloud s.clouds
    out hsp.cloud (by show _ ≤ s.min_sensor_range; rw [kc.p2]; exact hmin) (by show _ ≤ s.max_sensor_range; rw [kc.p1]; exact hmax)
    α β h1 h2 hseen' hh hsp.hist
  obtain ⟨-, -, hb⟩ := hsp.planned (isEmpty_false d1 d2 (by omega) b3 l1)
  obtain ⟨goal, pose, cl, r, q1, q2, q3, q4, q5⟩ := build_spec hb
  have q1' : s.star.goal = some goal := q1
  have q2' : s.star.pose = some pose := q2
  rw [k.starGoal ha] at q1'
  rw [k5] at q2'
  obtain rfl := Option.some.inj q1'
  obtain rfl := Option.some.inj q2'
  have q3' : some (closestPoint s.goal s.prev_goal s.position s.px4.xy_cruise) = some cl := q3
  obtain rfl := Option.some.inj q3'
  dsimp only at q4
  -- the candidates of the root
  have hcand : ∀ cs, candidatesAt Q out s.goal (closestPoint s.goal s.prev_goal s.position s.px4.xy_cruise) s.cost s.star.smoothing_margin
      s.star.max_sensor_range s.star.min_sensor_range s.star.children_per_node p v = some cs →
      ∀ b ∈ cs, b ∈ allCandidates M 30 60 ∧ b.cost ≤ distanceCost c.cost c.max_sensor_range := by
    intro cs hcs b hbm
    unfold candidatesAt at hcs
    rw [← k1, hsp.hist, Option.bind_some, k1] at hcs
    rw [ecp, eh] at hM
    rw [kc.q5, kc.q7, kc.q8, kc.p3, k.goal] at hcs
    rw [k.goal, k1] at hM
    rw [hM, Option.bind_some] at hcs
    obtain ⟨best, g1, g2⟩ := C27_best_candidates Q M GRID_LENGTH_E GRID_LENGTH_Z s.star.children_per_node (by rw [kc.q1]; exact hch)
    rw [g1] at hcs
    obtain rfl := Option.some.inj hcs
    refine ⟨?_, not_best_of_cheap g2 _ (by rw [kc.q1]; exact hcheap) b hbm⟩
    obtain ⟨-, -, rest, hperm, -⟩ := g2
    exact hperm.mem_iff.mp (List.mem_append_left _ hbm)
  have hnode : ∀ o n : TreeNode, o.pos = p → o.vel = v → IsChildOf ⟨s.star.children_per_node, s.star.n_expanded_nodes, s.star.tree_node_distance,
      s.star.max_path_length, s.star.tree_heuristic_weight, s.goal, p, v⟩ (candidatesAt Q out s.goal
      (closestPoint s.goal s.prev_goal s.position s.px4.xy_cruise) s.cost s.star.smoothing_margin s.star.max_sensor_range
      s.star.min_sensor_range s.star.children_per_node) o n →
      ∃ e z : ℕ, e < 30 ∧ z < 60 ∧ (e, z) ≠ (coarseRow α, coarseCol β) ∧
      n.pos = polarHistogramToCartesian ⟨6 * e - 87, 6 * z - 177, c.tree_node_distance⟩ p := by
    intro o n ho hv hchild
    obtain ⟨cs, b, m1, m2, m3, -⟩ := hchild.candidate
    rw [ho, hv] at m1
    obtain ⟨m4, m5⟩ := hcand cs m1 b m2
    unfold allCandidates at m4
    rw [List.mem_flatMap] at m4
    obtain ⟨e', he', m4⟩ := m4
    rw [List.mem_map] at m4
    obtain ⟨z', hz', m4⟩ := m4
    rw [List.mem_range] at he' hz'
    rw [ho, kc.q3] at m3
    obtain ⟨f1, f2⟩ := centre_eq e' z'
    rw [← m4] at m3 m5
    dsimp only at m3 m5
    refine ⟨e', z', he', hz', ?_, ?_⟩
    · intro hh
      obtain ⟨rfl, rfl⟩ := Prod.mk.inj hh
      linarith
    · rw [← f1, ← f2]
      exact m3
  have hroot := (C35_tree _ _ r q4).1.root
  have hparent := (C35_tree _ _ r q4).1.parent
  have hdepth : ∀ (i : ℕ) (n : TreeNode), r.tree[i]? = some n → n.depth = 0 → n.pos = p ∧ n.vel = v := by
    intro i n hi hn
    rcases Nat.eq_zero_or_pos i with rfl | hi0
    · obtain ⟨r0, r1, r2, r3, -⟩ := hroot
      rw [hi] at r1
      obtain rfl := Option.some.inj r1
      exact ⟨r2, r3⟩
    · obtain ⟨-, -, o, -, ho⟩ := hparent i n hi0 hi
      rw [ho.depth] at hn
      omega
  have hone : ∀ n ∈ r.tree, n.depth = 1 →
      ∃ e z : ℕ, e < 30 ∧ z < 60 ∧ (e, z) ≠ (coarseRow α, coarseCol β) ∧
      n.pos = polarHistogramToCartesian ⟨6 * e - 87, 6 * z - 177, c.tree_node_distance⟩ p := by
    intro n hn h1d
    obtain ⟨i, hi⟩ := List.mem_iff_getElem?.mp hn
    rcases Nat.eq_zero_or_pos i with rfl | hi0
    · obtain ⟨r0, r1, -, -, r4, -⟩ := hroot
      rw [hi] at r1
      obtain rfl := Option.some.inj r1
      omega
    · obtain ⟨-, -, o, ho1, ho⟩ := hparent i n hi0 hi
      have := ho.depth
      obtain ⟨x, y⟩ := hdepth _ o ho1 (by omega)
      exact hnode o n x y ho
  rw [est, q5]
  refine ⟨hone, ?_⟩
  intro pre first hpath
  have hpath' : r.path = pre ++ [first, p] := by
    have : s'.output.2.2 = s'.star.path := rfl
    rw [this, est, q5] at hpath
    exact hpath
  rcases build_cases _ _ with ⟨r', n, z0, z1, z2, z3, -, z5, z6, z7, z8, z9, z10, z11⟩ | ⟨z0, -⟩
  rotate_left
  · rw [q4] at z0; cases z0
  rw [q4] at z0
  obtain rfl := Option.some.inj z0
  -- the two last nodes of the path
  have hlen : r.path_nodes.length = pre.length + 2 := by rw [← z10, hpath']; simp
  have i1 : ∃ i, r.path_nodes[pre.length]? = some i := ⟨_, List.getElem?_eq_getElem (by omega)⟩
  obtain ⟨i, hi⟩ := i1
  have hl : r.path_nodes[pre.length + 1]? = some 0 := by
    rw [List.getLast?_eq_getElem?, hlen] at z8
    exact z8
  obtain ⟨n1, y1, y2⟩ := z11 _ _ hi
  have hfirst : first = n1.pos := by
    rw [hpath'] at y2
    simpa using y2
  rw [List.isChain_iff_getElem] at z9
  obtain ⟨x, y, x1, x2, x3, x4⟩ := z9 pre.length (by omega)
  have ei : r.path_nodes[pre.length] = i := by
    have := List.getElem?_eq_getElem (l := r.path_nodes) (i := pre.length) (by omega)
    rw [hi] at this
    exact (Option.some.inj this).symm
  have e0 : r.path_nodes[pre.length + 1] = 0 := by
    have := List.getElem?_eq_getElem (l := r.path_nodes) (i := pre.length + 1) (by omega)
    rw [hl] at this
    exact (Option.some.inj this).symm
  rw [ei, y1] at x1
  obtain rfl := Option.some.inj x1
  rw [e0] at x2
  obtain ⟨r0, r1, r2, r3, r4, -⟩ := hroot
  rw [x2] at r1
  obtain rfl := Option.some.inj r1
  rw [hfirst]
  exact hnode y n1 r2 r3 x4

/-- **C87, avoided.** In the situation of `C87_charged`, if at least as many directions as children per node cost no more than an obstacle
at the end of the sensor range, then no node of the new look-ahead tree next to the vehicle lies in the direction of the
obstacle, and neither does the first leg of the path. -/
theorem C87_avoided (es : List LpEvent) (now : ℝ) (s s' : LPlanner) (h : loopM (lpStep Q) lpInit es = some s)
    (hrun : lpStep Q s (.run now) = some s') (c : LpConfig) (hc : lastConfig es = some c) (p v : V3 ℝ) (q : Quat ℝ)
    (hs : lastState es = some (p, v, q)) (ha : GoalApplied es) (hp : 1 ≤ c.min_num_points_per_cell)
    (hmin : 1 / 1000 ≤ c.min_sensor_range) (hmax : 0 ≤ c.max_sensor_range) (c1 : 0 ≤ c.cost.yaw) (c2 : 0 ≤ c.cost.pitch)
    (c3 : 0 ≤ c.cost.velocity) (hm : c.smoothing_margin ≤ 180) (hg : goalAfter es ≠ p) (hch : 0 < c.children_per_node)
    (hd : 0 < c.tree_node_distance) (α β : ℝ) (h1 : -48 ≤ α) (h2 : α < 48)
    (hseen : c.min_num_points_per_cell ≤ newCount (s.cloudParams now) (lastClouds es) (fineCell α β)) (M : ℕ → ℕ → ℝ)
    (hM : getCostMatrix s'.histogram (goalAfter es) p v c.cost c.smoothing_margin s'.closest_pt c.max_sensor_range
      c.min_sensor_range = some M)
    (hcheap : c.children_per_node ≤ cheapDirections M (distanceCost c.cost c.max_sensor_range)) :
    (∀ n ∈ s'.star.tree, n.depth = 1 →
      n.pos ≠ polarHistogramToCartesian ⟨6 * coarseRow α - 87, 6 * coarseCol β - 177, c.tree_node_distance⟩ p) ∧
    (∀ pre first, s'.output.2.2 = pre ++ [first, p] →
      first ≠ polarHistogramToCartesian ⟨6 * coarseRow α - 87, 6 * coarseCol β - 177, c.tree_node_distance⟩ p) := by
  obtain ⟨a1, a2⟩ := avoided_cells es now s s' h hrun c hc p v q hs ha hp hmin hmax c1 c2 c3 hm hg hch hd α β h1 h2 hseen M hM hcheap
  have key : ∀ x, (∃ e z : ℕ, e < 30 ∧ z < 60 ∧ (e, z) ≠ (coarseRow α, coarseCol β) ∧
      x = polarHistogramToCartesian ⟨6 * e - 87, 6 * z - 177, c.tree_node_distance⟩ p) →
      x ≠ polarHistogramToCartesian ⟨6 * coarseRow α - 87, 6 * coarseCol β - 177, c.tree_node_distance⟩ p := by
    rintro x ⟨e, z, he, hz, hne, rfl⟩ heq
    obtain ⟨b1, b2, b3, -⟩ := coarse_bounds α β h1 h2
    obtain ⟨f1, f2⟩ := centre_eq (coarseRow α) (coarseCol β)
    obtain ⟨g1, g2⟩ := centre_eq e z
    rw [← f1, ← f2, ← g1, ← g2] at heq
    obtain ⟨rfl, rfl⟩ := step_inj he hz (by omega) b3 hd p heq
    exact hne rfl
  exact ⟨fun n hn hdep => key _ (a1 n hn hdep), fun pre first hpath => key _ (a2 pre first hpath)⟩

/-- A ray through the centre of a 6° cell passes no point of another cell. -/
theorem ray_cell {e z : ℕ} (he : e < 30) (hz : z < 60) {d k : ℝ} (hd : 0 < d) (hk : 0 < k) (p : V3 ℝ) :
    polarToHistogramIndex (cartesianToPolarHistogram (p.plus (V3.smul k ((polarHistogramToCartesian ⟨6 * e - 87, 6 * z - 177, d⟩ p).minus p))) p) 6 =
      ((z : ℤ), (e : ℤ)) := by
  have e1 : p.plus (V3.smul k ((polarHistogramToCartesian ⟨6 * e - 87, 6 * z - 177, d⟩ p).minus p)) =
      polarHistogramToCartesian ⟨6 * e - 87, 6 * z - 177, k * d⟩ p := by
    unfold V3.plus V3.smul V3.minus polarHistogramToCartesian
    dsimp only
    congr 1 <;> ring
  have ee : (e : ℝ) ≤ 29 := by exact_mod_cast (by omega : e ≤ 29)
  have zz : (z : ℝ) ≤ 59 := by exact_mod_cast (by omega : z ≤ 59)
  have e0 : (0 : ℝ) ≤ e := Nat.cast_nonneg e
  have z0 : (0 : ℝ) ≤ z := Nat.cast_nonneg z
  rw [e1, C05_polar_cartesian_round_trip _ p (mul_pos hk hd) (by dsimp only; linarith) (by dsimp only; linarith) (by dsimp only; linarith)
    (by dsimp only; linarith)]
  have r := C04_index_round_trip (K := ℝ) 6 (by norm_num) e z (k * d) (by omega) (by norm_num; omega) (by omega) (by norm_num; omega)
  have e2 : histogramIndexToPolar (K := ℝ) e z 6 (k * d) = ⟨6 * e - 87, 6 * z - 177, k * d⟩ := by
    unfold histogramIndexToPolar
    congr 1 <;> push_cast <;> norm_num <;> ring
  rw [e2] at r
  exact r

/-- **C87, nothing seen on the first leg.** In the situation of `C87_avoided`, no point of the 6° area of the obstacle lies on the ray on which
the first leg of the path starts, at whatever distance. -/
theorem C87_first_leg (es : List LpEvent) (now : ℝ) (s s' : LPlanner) (h : loopM (lpStep Q) lpInit es = some s)
    (hrun : lpStep Q s (.run now) = some s') (c : LpConfig) (hc : lastConfig es = some c) (p v : V3 ℝ) (q : Quat ℝ)
    (hs : lastState es = some (p, v, q)) (ha : GoalApplied es) (hp : 1 ≤ c.min_num_points_per_cell)
    (hmin : 1 / 1000 ≤ c.min_sensor_range) (hmax : 0 ≤ c.max_sensor_range) (c1 : 0 ≤ c.cost.yaw) (c2 : 0 ≤ c.cost.pitch)
    (c3 : 0 ≤ c.cost.velocity) (hm : c.smoothing_margin ≤ 180) (hg : goalAfter es ≠ p) (hch : 0 < c.children_per_node)
    (hd : 0 < c.tree_node_distance) (α β : ℝ) (h1 : -48 ≤ α) (h2 : α < 48)
    (hseen : c.min_num_points_per_cell ≤ newCount (s.cloudParams now) (lastClouds es) (fineCell α β)) (M : ℕ → ℕ → ℝ)
    (hM : getCostMatrix s'.histogram (goalAfter es) p v c.cost c.smoothing_margin s'.closest_pt c.max_sensor_range
      c.min_sensor_range = some M)
    (hcheap : c.children_per_node ≤ cheapDirections M (distanceCost c.cost c.max_sensor_range)) :
    ∀ pre first, s'.output.2.2 = pre ++ [first, p] →
      ∀ x, polarToHistogramIndex (cartesianToPolarHistogram x p) 6 = ((coarseCol β : ℤ), (coarseRow α : ℤ)) →
      ∀ k, 0 < k → x ≠ p.plus (V3.smul k (first.minus p)) := by
  rintro pre first hpath x hx k hk rfl
  obtain ⟨e, z, he, hz, hne, rfl⟩ := (avoided_cells es now s s' h hrun c hc p v q hs ha hp hmin hmax c1 c2 c3 hm hg hch hd α β h1 h2 hseen M hM hcheap).2 pre first hpath
  rw [ray_cell he hz hd hk] at hx
  obtain ⟨a, b⟩ := Prod.mk.inj hx
  apply hne
  rw [Int.natCast_inj.mp a, Int.natCast_inj.mp b]

/-! ### Non-vacuity -/

/-- The file of parameters without weights for comfort, without smoothing and with a tree of one level. -/
noncomputable def exampleSeenConfig : LpConfig := ⟨15, 1 / 5, ⟨0, 0, 0, 17 / 2⟩, 20, 1, 8, 1, 2, 0, 35, 3⟩

/-- One point 5 m to the east of the vehicle, in the way to the goal. -/
noncomputable def exampleSeenHistory : List LpEvent :=
  [.applyGoal, .config exampleSeenConfig, .clouds [[⟨.fin 5, .fin 0, .fin 3⟩, ⟨.nan, .fin 0, .fin 0⟩]], .fov 0 ⟨0, 0, 60, 45⟩,
    .state ⟨0, 0, 3⟩ ⟨1, 0, 0⟩ ⟨1, 0, 0, 0⟩, .goal ⟨20, 0, 3⟩, .prevGoal ⟨0, 0, 3⟩, .px4 ⟨5, 20, 3, .fin 4⟩, .mission .nan]

theorem east_point : pointAt ⟨0, 0, 3⟩ 5 0 90 = ⟨5, 0, 3⟩ := by
  unfold pointAt degToRad
  have h : (90 : ℝ) * (Real.pi / 180) = Real.pi / 2 := by ring
  rw [h]
  simp

theorem configure_cloud (s : LPlanner) (c : LpConfig) : (s.configure c).cloud = s.cloud := by
  unfold LPlanner.configure
  dsimp only
  split_ifs <;> rfl

theorem wrap90 : wrap180 (90 : ℝ) = 90 :=
  ((C01_wrap180_canonical (90 : ℝ)).2 _ (by norm_num) (by norm_num) ⟨0, by simp⟩).symm

theorem exampleSeen_usable (now : ℝ) (s : LPlanner) (h : loopM (lpStep Q) lpInit exampleSeenHistory = some s) :
    usableNew (s.cloudParams now) (lastClouds exampleSeenHistory) = [⟨5, 0, 3⟩] := by
  have k := knows _ s h
  obtain ⟨k1, -⟩ := k.state ⟨0, 0, 3⟩ ⟨1, 0, 0⟩ ⟨1, 0, 0, 0⟩ rfl
  have kc := k.config exampleSeenConfig rfl
  unfold usableNew
  have e1 : (s.cloudParams now).position = ⟨0, 0, 3⟩ := k1
  have e2 : (s.cloudParams now).min_range = 1 / 5 := kc.p2
  have e3 : (s.cloudParams now).max_range = 15 := kc.p1
  have e4 : (lastClouds exampleSeenHistory).flatten.filterMap V3.finite? = [(⟨5, 0, 3⟩ : V3 ℝ)] := rfl
  rw [e1, e2, e3, e4, List.filter_cons_of_pos, List.filter_nil]
  apply decide_eq_true
  unfold distSq
  norm_num

/-- The hypotheses of `C87_charged` and `C87_avoided` are met: the direction is 0° above the horizon and 90° from north. -/
theorem exampleSeen_meets (Q : PriorityQueue (Candidate ℝ) Candidate.lt) :
    ∃ s s', loopM (lpStep Q) lpInit exampleSeenHistory = some s ∧ lpStep Q s (.run 1) = some s' ∧
      lastConfig exampleSeenHistory = some exampleSeenConfig ∧ lastState exampleSeenHistory = some (⟨0, 0, 3⟩, ⟨1, 0, 0⟩, ⟨1, 0, 0, 0⟩) ∧
      GoalApplied exampleSeenHistory ∧ goalAfter exampleSeenHistory ≠ ⟨0, 0, 3⟩ ∧
      exampleSeenConfig.min_num_points_per_cell ≤ newCount (s.cloudParams 1) (lastClouds exampleSeenHistory) (fineCell 0 90) ∧
      ∃ M, getCostMatrix s'.histogram (goalAfter exampleSeenHistory) ⟨0, 0, 3⟩ ⟨1, 0, 0⟩ exampleSeenConfig.cost
        exampleSeenConfig.smoothing_margin s'.closest_pt exampleSeenConfig.max_sensor_range exampleSeenConfig.min_sensor_range = some M ∧
      exampleSeenConfig.children_per_node ≤ cheapDirections M (distanceCost exampleSeenConfig.cost exampleSeenConfig.max_sensor_range) := by
  have h : ∃ s, loopM (lpStep Q) lpInit exampleSeenHistory = some s := ⟨_, rfl⟩
  obtain ⟨s, h⟩ := h
  have hg : goalAfter exampleSeenHistory = ⟨20, 0, 3⟩ := rfl
  have hnorm : ((⟨20, 0, 3⟩ : V3 ℝ).minus ⟨0, 0, 3⟩).norm = 20 := by
    unfold V3.norm V3.dot V3.minus
    norm_num
    rw [show (400 : ℝ) = 20 ^ 2 by norm_num, Real.sqrt_sq (by norm_num)]
  have happ : GoalApplied exampleSeenHistory := ⟨.applyGoal, by simp [exampleSeenHistory], Or.inl rfl⟩
  have hne : goalAfter exampleSeenHistory ≠ ⟨0, 0, 3⟩ := by rw [hg]; intro e; have := congrArg V3.x e; norm_num at this
  obtain ⟨s', h'⟩ := C86_run_defined exampleSeenHistory 1 s h exampleSeenConfig rfl ⟨0, 0, 3⟩ ⟨1, 0, 0⟩ ⟨1, 0, 0, 0⟩ rfl
    happ (by unfold lastClouds; simp [exampleSeenHistory]) (by norm_num [exampleSeenConfig])
    (by norm_num [exampleSeenConfig]) (by norm_num [exampleSeenConfig]) (by norm_num [exampleSeenConfig]) (by norm_num [exampleSeenConfig])
    hne (by rw [hg, hnorm]; norm_num [exampleSeenConfig])
  have k := knows _ s h
  obtain ⟨k1, -⟩ := k.state ⟨0, 0, 3⟩ ⟨1, 0, 0⟩ ⟨1, 0, 0, 0⟩ rfl
  have kc := k.config exampleSeenConfig rfl
  have hus := exampleSeen_usable (Q := Q) 1 s h
  have hcell : cellOf (s.cloudParams 1) ⟨5, 0, 3⟩ = fineCell 0 90 := by
    have e := C24_cell_of_direction (s.cloudParams 1) 5 0 90 (by norm_num) (by norm_num) (by norm_num)
    have e1 : (s.cloudParams 1).position = ⟨0, 0, 3⟩ := k1
    rw [e1, east_point] at e
    exact e
  refine ⟨s, s', h, h', rfl, rfl, happ, hne, ?_, ?_⟩
  · unfold newCount
    rw [hus, List.filter_cons_of_pos (by exact decide_eq_true hcell)]
    simp [exampleSeenConfig]
  · obtain ⟨out, hh, d, st, t, hsp⟩ := run_spec (show s.run Q 1 = some s' from h')
    have eh : s'.histogram = hh := by rw [hsp.eq]
    obtain ⟨hd, e1, d1, d2⟩ := newHistogram_dims out s.position
    rw [hsp.hist] at e1
    obtain rfl := Option.some.inj e1
    obtain ⟨facing, M, other, -, hoth, hM, hval⟩ := C29_cost_matrix_exact s'.histogram (by rw [eh]; exact d1) (by rw [eh]; exact d2)
      (goalAfter exampleSeenHistory) ⟨0, 0, 3⟩ ⟨1, 0, 0⟩ exampleSeenConfig.cost exampleSeenConfig.smoothing_margin s'.closest_pt
      exampleSeenConfig.max_sensor_range exampleSeenConfig.min_sensor_range hne (by norm_num [exampleSeenConfig])
    refine ⟨M, hM, ?_⟩
    -- the histogram is empty in all other columns of the row of the horizon
    have hzero : ∀ z, z < 8 → hh.dist 15 z = 0 := by
      intro z hz
      obtain ⟨h2, g1, g2⟩ := C25_mean_distance out s.position
      rw [show Histogram.new 6 = Histogram.new ALPHA_RES from rfl, hsp.hist] at g1
      obtain rfl := Option.some.inj g1
      have g3 := g2 15 z (by norm_num) (by omega)
      rw [getDist_nat (by rw [d1]; norm_num) (by rw [d2]; omega)] at g3
      rw [if_pos] at g3
      · exact Option.some.inj g3
      unfold pointsInCell
      rw [List.filter_eq_nil_iff]
      intro p hp hc
      have hc := of_decide_eq_true hc
      obtain ⟨a, ha, rfl⟩ := List.mem_map.mp hp
      obtain ⟨out', o1, o2⟩ := C24_sound (s.cloudParams 1) (by show 1 ≤ s.min_num_points_per_cell; rw [kc.p5]; norm_num [exampleSeenConfig])
        s.cloud s.clouds (by rw [clouds_known _ s h]; unfold lastClouds; simp [exampleSeenHistory])
      rw [hsp.cloud] at o1
      obtain rfl := Option.some.inj o1
      have hcl : s.cloud = [] := by
        obtain rfl := Option.some.inj h
        exact (configure_cloud lpInit.applyGoal exampleSeenConfig).trans rfl
      rcases o2 a ha with ⟨-, x, -⟩ | ⟨o, ho, -⟩
      · rw [clouds_known _ s h, hus, List.mem_singleton] at x
        rw [x, cells_nest] at hc
        have e2 : polarToHistogramIndex (cartesianToPolarHistogram ⟨5, 0, 3⟩ s.position) 2 = fineCell 0 90 := hcell
        rw [e2] at hc
        unfold fineCell at hc
        rw [wrap90] at hc
        have := (Prod.mk.inj hc).1
        norm_num at this
        omega
      · rw [hcl] at ho
        cases ho
    have hcheap : ∀ z, z < 8 → M 15 z = 0 := by
      intro z hz
      have hn : (0 : ℕ) = ⌈exampleSeenConfig.smoothing_margin / 6⌉.toNat := by simp [exampleSeenConfig]
      have hv := hval 0 hn 15 (by norm_num) z (by omega)
      have hone : ∀ c : ℕ → ℝ, interpolated 60 (stepSize 15) c z = c z := by
        intro c
        rw [stepSize_one 15 (by norm_num) (by norm_num)]
        unfold interpolated prevSample
        simp
      rw [hone] at hv
      have ho := hoth 15 (by norm_num) z (by omega)
      rw [C28_other_costs_exact _ _ _ _ _ _ _ _ (by norm_num) hne] at ho
      have ho' := (Prod.mk.inj (Option.some.inj ho)).2
      rw [hv, ← ho']
      have hs : sphereGet (fun e z => interpolated 60 (stepSize e) (fun z => distanceCost exampleSeenConfig.cost (s'.histogram.dist e z)) z)
          30 60 15 z = 0 := by
        unfold sphereGet foldRow foldCol
        rw [if_neg (by norm_num), if_neg (by norm_num)]
        norm_num
        have ez : ((z : ℤ) % 60).toNat = z := by omega
        rw [ez, show Int.toNat 15 = 15 from rfl, hone, eh, hzero z hz]
        exact (C28_obstacle_cost _).1 0 le_rfl
      simp only [Nat.mul_zero, Nat.zero_add, Finset.range_one, Finset.sum_singleton, Nat.cast_zero, add_zero, sub_zero]
      rw [show ((15 : ℕ) : ℤ) = 15 from rfl, hs]
      simp [exampleSeenConfig]
    have hcost : 0 ≤ distanceCost exampleSeenConfig.cost exampleSeenConfig.max_sensor_range :=
      ((C28_obstacle_cost _).2.1 _ (by norm_num [exampleSeenConfig])).1.le
    unfold cheapDirections
    calc exampleSeenConfig.children_per_node = (({15} : Finset ℕ) ×ˢ Finset.range 8).card := by
          rw [Finset.card_product]
          rfl
      _ ≤ _ := by
          refine Finset.card_le_card ?_
          intro c hc
          rw [Finset.mem_product, Finset.mem_singleton, Finset.mem_range] at hc
          rw [Finset.mem_filter, Finset.mem_product, Finset.mem_range, Finset.mem_range]
          refine ⟨⟨by omega, by omega⟩, ?_⟩
          rw [hc.1, hcheap c.2 hc.2]
          exact hcost

end Avoidance
