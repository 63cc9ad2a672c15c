import Verif.OpenPlanProps
import Verif.WpOpenProps

/-!
# Flying such a plan (C125)
-/

namespace Avoidance

noncomputable section
open Classical

/-- A step of a plan without costs is a vector whose height is almost all of its length (helper). -/
theorem step_unit_down (p : V3 ℝ) (d : ℝ) (hd : 0 < d) (z : ℕ) :
    let u := ((polarHistogramToCartesian ⟨-87, 6 * (z : ℕ) - 177, d⟩ p).minus p).normalized
    u.norm = 1 ∧ u.z < -(99 / 100) := by
  have hn : ((polarHistogramToCartesian ⟨-87, 6 * (z : ℕ) - 177, d⟩ p).minus p).norm = d := by
    rw [polar_step_norm, abs_of_pos hd]
  refine ⟨V3.normalized_norm (by rw [hn]; exact hd), ?_⟩
  obtain ⟨s, h1, h2, -⟩ := C125_setpoint_below_violated p d hd z 0 0
  have hs : s = polarHistogramToCartesian ⟨-87, 6 * (z : ℕ) - 177, d⟩ p := by
    simp [getSetpointFromPath] at h1
    exact h1.symm
  rw [← hs] at hn ⊢
  have hdot : 0 < (s.minus p).dot (s.minus p) := by
    by_contra h0
    have : (s.minus p).norm = 0 := by unfold V3.norm; exact Real.sqrt_eq_zero_of_nonpos (not_lt.1 h0)
    rw [hn] at this
    exact hd.ne' this
  unfold V3.normalized
  rw [if_pos hdot, hn]
  unfold V3.smul V3.minus
  dsimp only
  rw [div_mul_eq_mul_div, one_mul, div_lt_iff₀ hd]
  linarith

/-- **C125 (violated: what is published).** Following the plan from where it was made (without smoothing), the generator publishes
a point straight below the vehicle up to eight degrees: the way to it is `speed` times a vector of length one whose height is less
than -0.99, wherever the goal is. -/
theorem C125_published_below_violated (s : OpenState) (pl : PlannerInfo) (i : WgIn) (now : ℝ) (d : ℝ) (hd : 0 < d) (z : ℕ)
    (hp : pl.path = [polarHistogramToCartesian ⟨-87, 6 * (z : ℕ) - 177, d⟩ i.position, i.position])
    (ha : s.w.auto_land = false) (hs : s.w.smoothing_speed_xy < 1 / 100) :
    let v := (openCycle (.TRY_PATH, s) pl i now).2.w
    ∃ u : V3 ℝ, u.norm = 1 ∧ u.z < -(99 / 100) ∧ v.out_position = (i.position.plus (V3.smul v.speed u)).fin := by
  dsimp only
  rw [openCycle_eq]
  obtain ⟨a1, a2, -, -, -, -, -, -, -, a10, -, -, a13, -, -⟩ := openStart_spec s pl i now
  have ha' := a10.trans ha
  have hs' : (openStart s pl i now).w.smoothing_speed_xy < 1 / 100 := by rw [a13]; exact hs
  generalize openStart s pl i now = t at a1 a2 ha' hs' ⊢
  obtain ⟨u1, u2⟩ := step_unit_down i.position d hd z
  have hset : wgSetpoint t.w.planner t.w.current_time = (true, some (polarHistogramToCartesian ⟨-87, 6 * (z : ℕ) - 177, d⟩ i.position)) := by
    rw [a1]
    unfold wgSetpoint
    rw [hp]
    cases pl.cruise_velocity <;> simp [getSetpointFromPath]
  generalize polarHistogramToCartesian ⟨-87, 6 * (z : ℕ) - 177, d⟩ i.position = q at hset u1 u2
  refine ⟨(q.minus i.position).normalized, u1, u2, ?_⟩
  generalize hu : (q.minus i.position).normalized = u at u1 u2
  show (runTryPathOpen t).2.w.out_position = (i.position.plus (V3.smul (runTryPathOpen t).2.w.speed u)).fin
  have key : ∀ v : OpenState, v.w.out_position = (getPathMsgOpen .TRY_PATH
      { t with w := { t.w with out_goto := t.w.position.plus u }, goto_z := some (t.w.position.plus u).z }).w.out_position →
      v.w.speed = (getPathMsgOpen .TRY_PATH
      { t with w := { t.w with out_goto := t.w.position.plus u }, goto_z := some (t.w.position.plus u).z }).w.speed →
      v.w.out_position = (i.position.plus (V3.smul v.w.speed u)).fin := by
    intro v h1 h2
    obtain ⟨w, dt, -, -, p1, p2, -, -, -, p3, p4⟩ := path_manual .TRY_PATH
      { t with w := { t.w with out_goto := t.w.position.plus u }, goto_z := some (t.w.position.plus u).z } ha' hs'
    rw [h1, h2, p3, p4]
    have e : ∀ w : WgState, w.position = i.position → w.out_goto = i.position.plus u →
        let r := adaptSpeedOpen .TRY_PATH dt ⟨w, some (i.position.plus u).z, some (i.position.plus u).z, t.smoothed_z⟩
        (⟨some r.w.out_adapted.x, some r.w.out_adapted.y, r.adapted_z⟩ : V3 (Option ℝ)) = (i.position.plus (V3.smul r.w.speed u)).fin := by
      intro w q1 q2
      unfold adaptSpeedOpen
      dsimp only
      rw [q1, q2]
      have e1 : (⟨(i.position.plus u).x, (i.position.plus u).y, (i.position.plus u).z⟩ : V3 ℝ).minus i.position = u := by
        unfold V3.minus V3.plus
        simp
      have e2 : u.normalized = u := by
        have := V3.smul_normalized (a := u) (by rw [u1]; norm_num) 1
        have hdot : 0 < u.dot u := by
          by_contra h0
          have : u.norm = 0 := by unfold V3.norm; exact Real.sqrt_eq_zero_of_nonpos (not_lt.1 h0)
          rw [u1] at this
          norm_num at this
        unfold V3.normalized
        rw [if_pos hdot, u1]
        unfold V3.smul
        simp
      rw [e1, u1, if_pos (show (1 : ℝ) > 1 / 10 by norm_num), e2]
      rfl
    rw [a2] at p1 p2
    rw [a2]
    exact e w p1 p2
  unfold runTryPathOpen
  rw [hset]
  dsimp only
  rw [← hu, ← a2] at key
  rw [← hu, ← a2]
  have alt : ∀ w : WgState, (isAltitudeChangeOpen w).2.out_position = w.out_position ∧ (isAltitudeChangeOpen w).2.speed = w.speed := by
    intro w
    unfold isAltitudeChangeOpen
    dsimp only
    split <;> exact ⟨rfl, rfl⟩
  split_ifs <;> first | exact key _ rfl rfl | exact key _ (alt _).1 (alt _).2

/-- Non-vacuity: a plan of one step of 2 m down from five metres above the ground. -/
example : ∃ u : V3 ℝ, u.norm = 1 ∧ u.z < -(99 / 100) ∧
    (openCycle (.TRY_PATH, openInit false) ⟨[polarHistogramToCartesian ⟨-87, 6 * (3 : ℕ) - 177, 2⟩ ⟨0, 0, 5⟩, ⟨0, 0, 5⟩], 0, none⟩ (openIn .mission 3) 1).2.w.out_position =
      ((⟨0, 0, 5⟩ : V3 ℝ).plus (V3.smul (openCycle (.TRY_PATH, openInit false) ⟨[polarHistogramToCartesian ⟨-87, 6 * (3 : ℕ) - 177, 2⟩ ⟨0, 0, 5⟩, ⟨0, 0, 5⟩], 0, none⟩ (openIn .mission 3) 1).2.w.speed u)).fin :=
  C125_published_below_violated (openInit false) ⟨[polarHistogramToCartesian ⟨-87, 6 * (3 : ℕ) - 177, 2⟩ ⟨0, 0, 5⟩, ⟨0, 0, 5⟩], 0, none⟩ (openIn .mission 3) 1 2
    (by norm_num) 3 rfl rfl (by norm_num [openInit])

/-- Specification: in this round the vehicle is on the way to an ordinary waypoint of a mission, nothing asks it to stay, and the planner
has just planned, for a goal with open height, from where the vehicle is: any cloud, any horizontal goal, any parameters. -/
def PlannedOpen (pl : PlannerInfo) (i : WgIn) : Prop :=
  i.nav = .mission ∧ i.is_land = false ∧ i.is_takeoff = false ∧ i.stay = false ∧
  ∃ (Q : PriorityQueue OpenCandidate OpenCandidate.lt) (conv : ℕ × ℕ → ℤ) (cfg : StarConfig) (cloud : List (AgedPoint ℝ)) (cx cy : ℝ)
    (params : CostParams) (margin maxr minr : ℝ) (r : StarResult),
    0 < cfg.children_per_node ∧ cfg.children_per_node ≤ 60 ∧ 0 < cfg.n_expanded_nodes ∧ 1 / 5 ≤ cfg.tree_node_distance ∧ margin ≤ 180 ∧
    cfg.position = i.position ∧
    buildTreeOpen cfg (candidatesOpen Q conv cloud i.goal.x i.goal.y none cx cy params margin maxr minr cfg.children_per_node) = some r ∧
    pl.path = r.path

theorem plannedOpen_path {pl : PlannerInfo} {i : WgIn} (h : PlannedOpen pl i) :
    ∃ d, 0 < d ∧ ∃ z : ℕ, pl.path = [polarHistogramToCartesian ⟨-87, 6 * (z : ℕ) - 177, d⟩ i.position, i.position] := by
  obtain ⟨-, -, -, -, Q, conv, cfg, cloud, cx, cy, params, margin, maxr, minr, r, h1, h2, h3, h4, h5, h6, h7, h8⟩ := h
  obtain ⟨r', z, -, e1, e2⟩ := C125_plan_down_violated Q conv cfg h1 h2 h3 h4 cloud i.goal.x i.goal.y cx cy params margin h5 maxr minr
  rw [h7] at e1
  obtain rfl := Option.some.inj e1
  exact ⟨cfg.tree_node_distance, by linarith, z, by rw [h8, e2, h6]⟩

/-- What stays the same in a round of following such a plan (helper). -/
theorem planned_stays (s : OpenState) (pl : PlannerInfo) (i : WgIn) (now : ℝ) (h : PlannedOpen pl i) :
    (openCycle (.TRY_PATH, s) pl i now).1 = .TRY_PATH ∧ (openCycle (.TRY_PATH, s) pl i now).2.w.auto_land = false ∧
    (openCycle (.TRY_PATH, s) pl i now).2.w.smoothing_speed_xy = s.w.smoothing_speed_xy := by
  obtain ⟨d, hd, z, hp⟩ := plannedOpen_path h
  obtain ⟨g1, g2, g3, g4, -⟩ := h
  rw [openCycle_eq]
  dsimp only
  obtain ⟨a1, a2, -, a4, a5, a6, -, -, -, -, -, -, a13, -, -⟩ := openStart_spec s pl i now
  have a16 : (openStart s pl i now).w.is_takeoff = i.is_takeoff := by
    unfold openStart wgStart wgUpdate
    rcases ha : i.airborne <;> rcases hs : s.w.smoothed_loc with _ | l <;> rcases hl : s.w.auto_land <;> simp [ha, hs, hl]
  generalize openStart s pl i now = t at a1 a2 a4 a5 a6 a13 a16 ⊢
  have hset : (wgSetpoint t.w.planner t.w.current_time).1 = true := by
    rw [a1]
    unfold wgSetpoint
    rw [hp]
    cases pl.cruise_velocity <;> simp [getSetpointFromPath]
  have hrun : ∃ u : OpenState, u.w.smoothing_speed_xy = t.w.smoothing_speed_xy ∧ u.w.auto_land = false ∧ runTryPathOpen t = (.REPEAT, u) := by
    unfold runTryPathOpen
    dsimp only
    generalize hu : ({ t with w := { t.w with out_goto := _ }, goto_z := _ } : OpenState) = u
    obtain ⟨f, -⟩ := sameW_path .TRY_PATH u
    have n1 : (getPathMsgOpen .TRY_PATH u).w.loiter = false := by rw [f.loiter, ← hu]; exact a6.trans g4
    have m1 : (getPathMsgOpen .TRY_PATH u).w.nav = .mission := by rw [f.nav, ← hu]; exact a4.trans g1
    have m2 : (getPathMsgOpen .TRY_PATH u).w.is_land = false := by rw [f.is_land, ← hu]; exact a5.trans g2
    have m3 : (getPathMsgOpen .TRY_PATH u).w.is_takeoff = false := by rw [f.is_takeoff, ← hu]; exact a16.trans g3
    have m4 : (getPathMsgOpen .TRY_PATH u).w.smoothing_speed_xy = t.w.smoothing_speed_xy := by rw [f.sxy, ← hu]
    have n2 : isAltitudeChangeOpen (getPathMsgOpen .TRY_PATH u).w = (false, { (getPathMsgOpen .TRY_PATH u).w with auto_land := false }) := by
      unfold isAltitudeChangeOpen
      simp [m1, m2, m3]
    rw [n1, n2]
    refine ⟨{ getPathMsgOpen .TRY_PATH u with w := { (getPathMsgOpen .TRY_PATH u).w with auto_land := false } }, m4, rfl, ?_⟩
    simp [hset]
  obtain ⟨u, u1, u2, u3⟩ := hrun
  unfold Machine.iterateOnce openMachine openRun
  dsimp only
  rw [u3]
  exact ⟨rfl, u2, u1.trans a13⟩

/-- **C125 (violated: down to the ground, whatever is in the way).** As long as the planner plans for a goal with open height from where
the vehicle is, however many rounds that goes on and whatever the cameras see in them, the generator (without smoothing) keeps
following these plans and in every round publishes a point below the vehicle: the way to it is `speed` times a vector of length one
whose height is less than -0.99. -/
theorem C125_descends_violated (s : OpenState) (l : List (PlannerInfo × WgIn × ℝ)) (pl : PlannerInfo) (i : WgIn) (now : ℝ)
    (h : ∀ r ∈ l ++ [(pl, i, now)], PlannedOpen r.1 r.2.1) (ha : s.w.auto_land = false) (hs : s.w.smoothing_speed_xy < 1 / 100) :
    let x := openRunAll (.TRY_PATH, s) (l ++ [(pl, i, now)])
    x.1 = .TRY_PATH ∧
    ∃ u : V3 ℝ, u.norm = 1 ∧ u.z < -(99 / 100) ∧ x.2.w.out_position = (i.position.plus (V3.smul x.2.w.speed u)).fin := by
  have key : ∀ (l : List (PlannerInfo × WgIn × ℝ)) (s : OpenState), (∀ r ∈ l, PlannedOpen r.1 r.2.1) → s.w.auto_land = false →
      s.w.smoothing_speed_xy < 1 / 100 →
      ∃ s', openRunAll (.TRY_PATH, s) l = (.TRY_PATH, s') ∧ s'.w.auto_land = false ∧ s'.w.smoothing_speed_xy < 1 / 100 := by
    intro l
    induction l with
    | nil => exact fun s _ h1 h2 => ⟨s, rfl, h1, h2⟩
    | cons a l ih =>
      obtain ⟨pl, i, now⟩ := a
      intro s h h1 h2
      obtain ⟨b1, b2, b3⟩ := planned_stays s pl i now (h (pl, i, now) (List.mem_cons_self ..))
      obtain ⟨s', e, r⟩ := ih (openCycle (.TRY_PATH, s) pl i now).2 (fun r hr => h r (List.mem_cons_of_mem _ hr)) b2 (by rw [b3]; exact h2)
      refine ⟨s', ?_, r⟩
      have hp : openCycle (.TRY_PATH, s) pl i now = (.TRY_PATH, (openCycle (.TRY_PATH, s) pl i now).2) := Prod.ext b1 rfl
      show openRunAll (openCycle (.TRY_PATH, s) pl i now) l = _
      rw [hp]
      exact e
  obtain ⟨s', e, h1, h2⟩ := key l s (fun r hr => h r (List.mem_append_left _ hr)) ha hs
  have hi := h (pl, i, now) (by simp)
  obtain ⟨d, hd, z, hp⟩ := plannedOpen_path hi
  dsimp only
  rw [openRunAll_append, e]
  exact ⟨(planned_stays s' pl i now hi).1, C125_published_below_violated s' pl i now d hd z hp h1 h2⟩

/-- Non-vacuity: there are such plans, here with two points seen three metres below the vehicle; the goal is three metres ahead. -/
example : ∃ pl : PlannerInfo, PlannedOpen pl (openIn .mission 3) := by
  obtain ⟨r, z, -, h, -⟩ := C125_plan_down_violated openQueue (fun _ => 0) ⟨8, 10, 2, 4, 35, ⟨3, 0, 0⟩, ⟨0, 0, 5⟩, ⟨3, 0, 0⟩⟩ (by norm_num) (by norm_num)
    (by norm_num) (by norm_num) [⟨⟨0, 0, 2⟩, 0⟩, ⟨⟨1, 0, 2⟩, 0⟩] 3 0 0 0 ⟨1, 1, 1, 1⟩ 40 (by norm_num) 15 (1 / 5)
  exact ⟨⟨r.path, 0, some 1⟩, rfl, rfl, rfl, rfl, openQueue, fun _ => 0, ⟨8, 10, 2, 4, 35, ⟨3, 0, 0⟩, ⟨0, 0, 5⟩, ⟨3, 0, 0⟩⟩, [⟨⟨0, 0, 2⟩, 0⟩, ⟨⟨1, 0, 2⟩, 0⟩],
    0, 0, ⟨1, 1, 1, 1⟩, 40, 15, 1 / 5, r, by norm_num, by norm_num, by norm_num, by norm_num, by norm_num, rfl, h, rfl⟩

end
end Avoidance
