import Verif.SlpResetProps

/-!
# The landing state machine: the height of the landing area (C51), the descent (C68), the exploration (C69), the grid
# message (C70)
-/

namespace Avoidance
namespace Landing

set_option linter.unusedSectionVars false

variable {K : Type*} [Field K] [LinearOrder K] [IsStrictOrderedRing K] [FloorRing K]

/-! ## C51 -/

/-- The mean heights of the `(2 s + 1) × (2 s + 1)` cells around the centre of the grid, row by row. -/
def centralMeans (w : Slp K) : List K :=
  (indices (2 * w.smoothing_land_cell + 1) (2 * w.smoothing_land_cell + 1)).map fun ij =>
    w.grid.mean (((w.grid.n / 2 : ℕ) : ℤ) - w.smoothing_land_cell + (ij.1 : ℤ))
      (((w.grid.n / 2 : ℕ) : ℤ) - w.smoothing_land_cell + (ij.2 : ℤ))

theorem indices_length (r c : ℕ) : (indices r c).length = r * c := by
  unfold indices
  simp [List.length_flatMap]

theorem mapM_some_of {A B : Type*} (f : A → Option B) (g : A → B) (l : List A) (h : ∀ a ∈ l, f a = some (g a)) :
    l.mapM f = some (l.map g) := by
  induction l with
  | nil => rfl
  | cons a l ih =>
    rw [List.mapM_cons, h a List.mem_cons_self, ih fun x hx => h x (List.mem_cons_of_mem _ hx)]
    rfl

theorem mapM_none_of {A B : Type*} (f : A → Option B) (l : List A) (h : ∃ a ∈ l, f a = none) : l.mapM f = none := by
  induction l with
  | nil => obtain ⟨a, ha, _⟩ := h; cases ha
  | cons a l ih =>
    rw [List.mapM_cons]
    obtain ⟨x, hx, e⟩ := h
    rcases List.mem_cons.mp hx with rfl | hx
    · rw [e]; rfl
    · cases f a with
      | none => rfl
      | some y => rw [ih ⟨x, hx, e⟩]; rfl

theorem patchMeans_eq (w : Slp K) :
    patchMeans w = if 2 * w.smoothing_land_cell + 1 ≤ w.grid.n then some (centralMeans w) else none := by
  unfold patchMeans centralMeans
  by_cases h : 2 * w.smoothing_land_cell + 1 ≤ w.grid.n
  · rw [if_pos h]
    apply mapM_some_of
    intro ij hij
    rw [mem_indices] at hij
    dsimp only
    rw [if_pos (by unfold InGrid; omega)]
  · rw [if_neg h]
    apply mapM_none_of
    refine ⟨(2 * w.smoothing_land_cell, 2 * w.smoothing_land_cell), by rw [mem_indices]; exact ⟨by simp, by simp⟩, ?_⟩
    dsimp only
    rw [if_neg (by unfold InGrid; omega)]

theorem sorted_counts (l : List K) (hl : l.Pairwise (· ≤ ·)) (i : ℕ) (v : K) (h : l[i]? = some v) :
    i + 1 ≤ l.countP (fun x => decide (x ≤ v)) ∧ l.length - i ≤ l.countP (fun x => decide (v ≤ x)) := by
  induction l generalizing i with
  | nil => simp at h
  | cons a l ih =>
    obtain ⟨h1, h2⟩ := List.pairwise_cons.mp hl
    cases i with
    | zero =>
      simp only [List.getElem?_cons_zero, Option.some_inj] at h
      subst h
      refine ⟨?_, ?_⟩
      · rw [List.countP_cons_of_pos (by simp)]; omega
      · have : (a :: l).countP (fun x => decide (a ≤ x)) = (a :: l).length := by
          rw [List.countP_eq_length]
          intro x hx
          rcases List.mem_cons.mp hx with rfl | hx
          · simp
          · simpa using h1 x hx
        rw [this]; omega
    | succ i =>
      rw [List.getElem?_cons_succ] at h
      obtain ⟨g1, g2⟩ := ih h2 i h
      have hv : v ∈ l := List.mem_of_getElem? h
      refine ⟨?_, ?_⟩
      · rw [List.countP_cons_of_pos (by simpa using h1 v hv)]; omega
      · rw [List.countP_cons, List.length_cons]; omega

/-- **C51.** The height assigned to the landing area is the mean height of one of its cells, and if `r` is the rounded
`p`-percent rank among the cells of the area then at least `r + 1` cells are not higher and all but at most `r` cells
are not lower. -/
theorem C51_rank (w : Slp K) (p v : K) (h : heightPercentile w p = some v) :
    v ∈ centralMeans w ∧ ∃ r : ℕ, (r : ℤ) = roundHalfUp (p / 100 * (((2 * w.smoothing_land_cell + 1) ^ 2 : ℕ) : K)) ∧
      r + 1 ≤ (centralMeans w).countP (fun x => decide (x ≤ v)) ∧
      (2 * w.smoothing_land_cell + 1) ^ 2 - r ≤ (centralMeans w).countP (fun x => decide (v ≤ x)) := by
  unfold heightPercentile at h
  rw [patchMeans_eq] at h
  obtain ⟨l, hl, h⟩ := Option.bind_eq_some_iff.mp h
  split_ifs at hl with hn
  cases hl
  dsimp only at h
  split_ifs at h with h0
  have hlen : (centralMeans w).length = (2 * w.smoothing_land_cell + 1) ^ 2 := by
    unfold centralMeans
    rw [List.length_map, indices_length]; ring
  have hperm := List.perm_insertionSort (· ≤ ·) (centralMeans w)
  have hs : ((centralMeans w).insertionSort (· ≤ ·)).Pairwise (· ≤ ·) := List.pairwise_insertionSort _ _
  obtain ⟨c1, c2⟩ := sorted_counts _ hs _ v h
  rw [hperm.countP_eq] at c1 c2
  rw [hperm.length_eq, hlen] at c2
  rw [hlen] at c1 h0
  exact ⟨hperm.mem_iff.mp (List.mem_of_getElem? h), _, Int.toNat_of_nonneg h0, c1, c2⟩

/-- **C51, definedness.** The 80-percent height is computed without leaving the grid or the list exactly if the patch
fits into the grid and the patch size is at least one cell. In particular a patch size of 0, which the parameter allows,
is undefined behaviour (finding). -/
theorem C51_defined_iff (w : Slp K) :
    (∃ v, heightPercentile w 80 = some v) ↔ 2 * w.smoothing_land_cell + 1 ≤ w.grid.n ∧ 1 ≤ w.smoothing_land_cell := by
  unfold heightPercentile
  rw [patchMeans_eq]
  have hlen : (centralMeans w).length = (2 * w.smoothing_land_cell + 1) ^ 2 := by
    unfold centralMeans
    rw [List.length_map, indices_length]; ring
  by_cases hn : 2 * w.smoothing_land_cell + 1 ≤ w.grid.n
  · rw [if_pos hn, Option.bind_some]
    dsimp only
    rw [hlen]
    generalize w.smoothing_land_cell = s at *
    have hpos : 0 ≤ roundHalfUp ((80 : K) / 100 * (((2 * s + 1) ^ 2 : ℕ) : K)) := by
      unfold roundHalfUp; apply Int.floor_nonneg.mpr; positivity
    rw [if_pos hpos]
    have hl2 : ((centralMeans w).insertionSort (· ≤ ·)).length = (2 * s + 1) ^ 2 := by
      rw [(List.perm_insertionSort (· ≤ ·) (centralMeans w)).length_eq, hlen]
    have : (∃ v, ((centralMeans w).insertionSort (· ≤ ·))[(roundHalfUp ((80 : K) / 100 * (((2 * s + 1) ^ 2 : ℕ) : K))).toNat]? = some v) ↔
        (roundHalfUp ((80 : K) / 100 * (((2 * s + 1) ^ 2 : ℕ) : K))).toNat < (2 * s + 1) ^ 2 := by
      rw [← hl2]
      constructor
      · rintro ⟨v, hv⟩; exact (List.getElem?_eq_some_iff.mp hv).1
      · intro hlt; exact ⟨_, List.getElem?_eq_getElem hlt⟩
    rw [this]
    constructor
    · intro hlt
      refine ⟨hn, ?_⟩
      by_contra hs
      have : s = 0 := by omega
      subst this
      have e : roundHalfUp ((80 : K) / 100 * (((2 * 0 + 1) ^ 2 : ℕ) : K)) = 1 := by
        unfold roundHalfUp
        rw [Int.floor_eq_iff]
        norm_num
      rw [e] at hlt
      exact absurd hlt (by decide)
    · rintro ⟨_, hs⟩
      have h9 : 9 ≤ (2 * s + 1) ^ 2 := by nlinarith
      generalize (2 * s + 1) ^ 2 = L at *
      have hlt : roundHalfUp ((80 : K) / 100 * (L : K)) < (L : ℤ) := by
        unfold roundHalfUp
        rw [Int.floor_lt]
        have : (9 : K) ≤ L := by exact_mod_cast h9
        push_cast
        linarith
      omega
  · rw [if_neg hn]
    constructor
    · rintro ⟨v, hv⟩; cases hv
    · rintro ⟨h, _⟩; exact absurd h hn

/-- Nine cells of heights 0..8: the 80-percent height is the one of rank 7. -/
example : heightPercentile ({ (slpInit : SlpNode ℚ).gen with
    smoothing_land_cell := 1, grid := { (Grid.new (3 : ℚ) 1) with mean := fun i j => 3 * i + j } }) 80 = some 7 := by
  decide +kernel

/-! ## C68 -/

/-- What the callbacks keep of the loiter data. -/
theorem callback_loiter (ny : V3 (Option K) → V3 (Option K) → Option K) (s s' : SlpNode K) (e : SlpEvent K)
    (he : ¬ e.isIterate) (h : slpStep ny s e = some s') :
    s'.gen.loiter_position = s.gen.loiter_position ∧ s'.gen.loiter_yaw = s.gen.loiter_yaw ∧
    s'.gen.state_changed = s.gen.state_changed := by
  cases e with
  | iterate => exact absurd trivial he
  | position p y => rw [← Option.some_inj.mp h]; exact ⟨rfl, rfl, rfl⟩
  | reconfigure a b c d f g => rw [← Option.some_inj.mp h]; exact ⟨rfl, rfl, rfl⟩
  | trajectory m =>
    rw [← Option.some_inj.mp h]
    unfold trajectoryCallback
    dsimp only
    split_ifs <;> exact ⟨rfl, rfl, rfl⟩
  | state mode armed =>
    rw [← Option.some_inj.mp h]
    unfold stateCallback
    dsimp only
    cases mode <;> cases armed <;> exact ⟨rfl, rfl, rfl⟩
  | grid m =>
    obtain ⟨g, _, rfl⟩ := Option.map_eq_some_iff.mp h
    exact ⟨rfl, rfl, rfl⟩

/-- An iteration in the landing state. -/
theorem calc_land (ny : V3 (Option K) → V3 (Option K) → Option K) (w w' : Slp K) (h : calculateWaypoint ny w = some w')
    (hs : w.state = .LAND) (ht : w.trigger_reset = false) :
    w'.state = .LAND ∧ w'.state_changed = false ∧ w'.loiter_position.x = (if w.state_changed = true then w.position.x else w.loiter_position.x) ∧
    w'.loiter_position.y = (if w.state_changed = true then w.position.y else w.loiter_position.y) ∧
    w'.loiter_yaw = (if w.state_changed = true then w.yaw else w.loiter_yaw) ∧
    w'.sent = ⟨⟨w'.loiter_position.x, w'.loiter_position.y, none⟩, ⟨none, none, some (-(7 / 10))⟩, w'.loiter_yaw, none⟩ :: w.sent := by
  have f := update_frame w
  rcases calc_cases ny w w' h with ⟨h0, _⟩ | ⟨_, t, v, rfl, hm⟩
  · rw [ht] at h0; cases h0
  · rw [hs] at hm
    dsimp only at hm
    unfold runLand landPrepare at hm
    cases hm
    rw [if_neg (by decide)]
    obtain ⟨f1, f2, f3, f4, f5, f6, f7, f8, f9, f10, f11, f12, f13, f14, f15, f16, f17⟩ := f
    by_cases hc : w.state_changed = true
    · rw [if_pos (by rw [f11]; exact hc), if_pos hc, if_pos hc, if_pos hc]
      exact ⟨f1.trans hs, rfl, (by show (updateSlpState w).position.x = _; rw [f9]), (by show (updateSlpState w).position.y = _; rw [f9]), f16, by
        show (⟨⟨(updateSlpState w).position.x, (updateSlpState w).position.y, none⟩, ⟨none, none, some (-(7 / 10))⟩, (updateSlpState w).yaw, none⟩ : Setpoint K) :: (updateSlpState w).sent = _
        rw [f12]; rfl⟩
    · rw [if_neg (by rw [f11]; exact hc), if_neg hc, if_neg hc, if_neg hc]
      exact ⟨f1.trans hs, rfl, (by show (updateSlpState w).loiter_position.x = _; rw [f10]), (by show (updateSlpState w).loiter_position.y = _; rw [f10]), f15, by
        show (⟨⟨(updateSlpState w).loiter_position.x, (updateSlpState w).loiter_position.y, none⟩, ⟨none, none, some (-(7 / 10))⟩, (updateSlpState w).loiter_yaw, none⟩ : Setpoint K) :: (updateSlpState w).sent = _
        rw [f12]; rfl⟩

/-- Entering the landing state sets the change flag. -/
theorem calc_enter_land (ny : V3 (Option K) → V3 (Option K) → Option K) (w w' : Slp K) (h : calculateWaypoint ny w = some w')
    (hs : w.state ≠ .LAND) (hs' : w'.state = .LAND) : w'.state_changed = true := by
  rcases calc_cases ny w w' h with ⟨_, rfl⟩ | ⟨_, t, v, rfl, hm⟩
  · rfl
  · by_cases ht : t ≠ .REPEAT
    · rw [if_pos ht]; rfl
    · rw [if_neg ht] at hs' ⊢
      exfalso
      have hv : v.state = .LAND := hs'
      have f := (update_frame w).1
      have : v.state = w.state := by
        rw [← f]
        cases e : w.state <;> rw [e] at hm <;> dsimp only at hm
        · exact (runGoTo_out ny _ _ _ hm).1.state
        · exact (runLoiter_out _ _ _ hm).1.state
        · exact absurd e hs
        · exact (runAltitude_out _ _ _ hm).1.state
        · exact (runEvaluate_out _ _ _ hm).1.state
        · exact (runGoToLand_out ny _ _ _ hm).1.state
      exact hs (this ▸ hv)

/-- **C68.** In every run: let event `e` start the landing, let `j` be the next iteration and let no reset be pending
until event `m`. Then the iteration `m` sends exactly one setpoint: straight down at 0.7 m/s, at the horizontal position
and with the yaw the vehicle had at the iteration `j` - no message can move it sideways. -/
theorem C68_vertical_descent {ny : V3 (Option K) → V3 (Option K) → Option K} {N : ℕ} {h : ℕ → SlpNode K}
    {ev : ℕ → SlpEvent K} (r : SlpRun ny N h ev) (e j m : ℕ) (hej : e < j) (hjm : j ≤ m) (hm : m < N)
    (h1 : (h e).gen.state ≠ .LAND) (h2 : (h (e + 1)).gen.state = .LAND) (hj : (ev j).isIterate)
    (hmid : ∀ i, e < i → i < j → ¬ (ev i).isIterate) (hmi : (ev m).isIterate)
    (hnr : ∀ i, e < i → i ≤ m → (h i).gen.trigger_reset = false) :
    (h (m + 1)).gen.sent =
      ⟨⟨(h j).gen.position.x, (h j).gen.position.y, none⟩, ⟨none, none, some (-(7 / 10))⟩, (h j).gen.yaw, none⟩ :: (h m).gen.sent ∧
    (h (m + 1)).gen.state = .LAND := by
  -- the change flag is set at `e + 1` and kept until `j`
  have he : (ev e).isIterate := by
    by_contra hne
    exact h1 ((callback_frame ny _ _ _ hne (r.step e (by omega))).1 ▸ h2)
  have hflag : ∀ d, e + 1 + d ≤ j → (h (e + 1 + d)).gen.state = .LAND ∧ (h (e + 1 + d)).gen.state_changed = true := by
    intro d
    induction d with
    | zero => intro _; exact ⟨h2, calc_enter_land ny _ _ (run_iterate r e (by omega) he) h1 h2⟩
    | succ d ih =>
      intro hd
      have hni := hmid (e + 1 + d) (by omega) (by omega)
      have hs := r.step (e + 1 + d) (by omega)
      obtain ⟨i1, i2⟩ := ih (by omega)
      exact ⟨(callback_frame ny _ _ _ hni hs).1.trans i1, (callback_loiter ny _ _ _ hni hs).2.2.trans i2⟩
  obtain ⟨sj, cj⟩ := hflag (j - (e + 1)) (by omega)
  rw [show e + 1 + (j - (e + 1)) = j by omega] at sj cj
  obtain ⟨a1, a2, a3, a4, a5, a6⟩ := calc_land ny _ _ (run_iterate r j (by omega) hj) sj (hnr j (by omega) (by omega))
  rw [if_pos cj] at a3 a4 a5
  -- afterwards nothing changes
  have keep : ∀ d, j + 1 + d ≤ m → (h (j + 1 + d)).gen.state = .LAND ∧ (h (j + 1 + d)).gen.state_changed = false ∧
      (h (j + 1 + d)).gen.loiter_position.x = (h j).gen.position.x ∧
      (h (j + 1 + d)).gen.loiter_position.y = (h j).gen.position.y ∧ (h (j + 1 + d)).gen.loiter_yaw = (h j).gen.yaw := by
    intro d
    induction d with
    | zero => intro _; exact ⟨a1, a2, a3, a4, a5⟩
    | succ d ih =>
      intro hd
      obtain ⟨b1, b2, b3, b4, b5⟩ := ih (by omega)
      have hs := r.step (j + 1 + d) (by omega)
      by_cases hi : (ev (j + 1 + d)).isIterate
      · obtain ⟨c1, c2, c3, c4, c5, c6⟩ := calc_land ny _ _ (run_iterate r (j + 1 + d) (by omega) hi) b1 (hnr _ (by omega) (by omega))
        rw [if_neg (by rw [b2]; decide)] at c3 c4 c5
        exact ⟨c1, c2, c3.trans b3, c4.trans b4, c5.trans b5⟩
      · obtain ⟨g1, g2, g3⟩ := callback_loiter ny _ _ _ hi hs
        exact ⟨(callback_frame ny _ _ _ hi hs).1.trans b1, g3.trans b2, (congrArg V3.x g1).trans b3,
          (congrArg V3.y g1).trans b4, g2.trans b5⟩
  by_cases hjm' : j = m
  · subst hjm'
    exact ⟨by rw [a6, a3, a4, a5], a1⟩
  · obtain ⟨b1, b2, b3, b4, b5⟩ := keep (m - (j + 1)) (by omega)
    rw [show j + 1 + (m - (j + 1)) = m by omega] at b1 b2 b3 b4 b5
    obtain ⟨c1, c2, c3, c4, c5, c6⟩ := calc_land ny _ _ (run_iterate r m hm hmi) b1 (hnr _ (by omega) (by omega))
    rw [if_neg (by rw [b2]; decide)] at c3 c4 c5
    exact ⟨by rw [c6, c3, c4, c5, b3, b4, b5], c1⟩

/-- The hypotheses are met by the approach of the flat site: two iterations of descent, the second after the vehicle was
pushed sideways. -/
example :
    (slpRunList (flatApproach ++ [.iterate, .iterate, .position ⟨some 1, some 2, some 3⟩ (some 0), .iterate])).map
      (fun s => s.gen.sent.head?) =
    some (some ⟨⟨some 0, some 0, none⟩, ⟨none, none, some (-7/10)⟩, some 0, none⟩) := by decide +kernel

/-- **C68, change of altitude.** While the vehicle is above the landing area, the commanded vertical speed points towards
the loiter height, at 0.7 m/s. -/
theorem C68_altitude_direction (w : Slp K) (z h v : K) (hz : w.position.z = some z) (t : Transition) (w' : Slp K)
    (hh : heightPercentile w 80 = some h) (habove : h ≤ z) (hr : runAltitudeChange w = some (t, w'))
    (hv : w'.velocity_setpoint.z = some v) :
    |v| = 7 / 10 ∧ (z < h + w.loiter_height → 0 < v) ∧ (h + w.loiter_height ≤ z → v < 0) := by
  unfold runAltitudeChange at hr
  have hp : heightPercentile (altitudePrepare w) 80 = some h := hh
  rw [hp, Option.map_some] at hr
  have hd : altitudeDirection { altitudePrepare w with altitude_percentile := h } = if z < h + w.loiter_height then 1 else -1 := by
    unfold altitudeDirection heightAbove
    have : ({ altitudePrepare w with altitude_percentile := h } : Slp K).position.z = some z := hz
    rw [this]
    simp only [Option.map_some]
    rw [abs_of_nonneg (by linarith)]
    have e : (altitudePrepare w).loiter_height = w.loiter_height := rfl
    rw [e]
    by_cases hc : z < h + w.loiter_height
    · rw [if_pos hc, if_pos (by linarith)]
    · rw [if_neg hc, if_neg (by linarith)]
  have hv' : v = altitudeDirection { altitudePrepare w with altitude_percentile := h } * landSpeed := by
    have hr' := Option.some_inj.mp hr
    unfold altitudeDecide at hr'
    dsimp only at hr'
    split_ifs at hr'
    all_goals
      obtain ⟨_, e⟩ := Prod.mk.inj hr'
      rw [← e] at hv
      exact (Option.some_inj.mp hv).symm
  rw [hv', hd]
  unfold landSpeed
  by_cases hc : z < h + w.loiter_height
  · rw [if_pos hc]
    refine ⟨?_, fun _ => by norm_num, fun h0 => by linarith⟩
    rw [abs_of_nonneg] <;> norm_num
  · rw [if_neg hc]
    refine ⟨?_, fun h0 => absurd h0 hc, fun _ => by norm_num⟩
    rw [abs_of_nonpos] <;> norm_num

/-- **C68, finding.** Below the landing area by more than the loiter height, the vehicle is sent further down. -/
theorem C68_below_witness :
    (slpRunList [.reconfigure 0 (4/10) 4 1 2 1, .position ⟨some 0, some 0, some (-6)⟩ (some 0), .trajectory (landMessage 0 1 0),
      .grid (flatGrid 1), .iterate, .iterate]).map (fun s => (s.gen.state, s.gen.velocity_setpoint.z)) =
    some (.ALTITUDE_CHANGE, some (-7/10)) := by decide +kernel

end Landing
end Avoidance
