import Verif.WpGenSpeed
import Verif.WpGenSmooth

/-!
# C37 (which waypoint each mode chooses), C38 (exact speed), C39 (the smoothing law)
of the local waypoint generator
-/

namespace Avoidance
open Classical

/-- The goal a cycle works with: an offboard altitude change aims above (or below) the vehicle. -/
def effectiveGoal (st : PlannerState) (i : WgIn) : V3 ℝ :=
  if st = .ALTITUDE_CHANGE ∧ i.nav = .offboard then ⟨i.position.x, i.position.y, i.goal.z⟩ else i.goal

theorem targetOf_goal (st : PlannerState) (s : WgState) (i : WgIn) (now : ℝ) :
    (targetOf st (wgStart s i now)).goal = effectiveGoal st i := by
  obtain ⟨a1, a2, a3, a4, a5, -⟩ := wgStart_spec s i now
  obtain ⟨-, -, -, -, -, m6, m7⟩ := targetOf_more st (wgStart s i now)
  unfold effectiveGoal
  by_cases h1 : st = .ALTITUDE_CHANGE
  · by_cases h2 : i.nav = .offboard
    · rw [if_pos ⟨h1, h2⟩]
      subst h1
      have := (altTarget_goal (wgStart s i now) (by rw [a5, h2])).1
      rw [show targetOf .ALTITUDE_CHANGE (wgStart s i now) = altTarget (altEnter (wgStart s i now)) from rfl,
        this, a2, a4]
    · rw [if_neg (fun h => h2 h.2), m7 (by rw [a5]; exact h2), a4]
  · rw [if_neg (fun h => h1 h.1), m6 h1, a4]

theorem wgCycle_goto (x : PlannerState × WgState) (i : WgIn) (now : ℝ) :
    (wgCycle x i now).2.out_goto =
      if x.2.auto_land = false ∧ goalDistance x.1 i < 1 then effectiveGoal x.1 i
      else (targetOf x.1 (wgStart x.2 i now)).out_goto := by
  obtain ⟨al, re, sc, ho⟩ := wgCycle_out x i now
  obtain ⟨a1, a2, a3, a4, a5, a6, a7, a8, a9, a10, a11, a12, a13, a14, a15, a16, a17, -⟩ := wgStart_spec x.2 i now
  obtain ⟨m1, -⟩ := targetOf_more x.1 (wgStart x.2 i now)
  have hD := goalDistance_eq x.1 x.2 i now
  have hg := targetOf_goal x.1 x.2 i now
  rw [ho]
  dsimp only
  cases hl : x.2.auto_land
  · obtain ⟨-, s2, -⟩ := getPathMsg_speed x.1 (targetOf x.1 (wgStart x.2 i now)) (by rw [m1, a17, hl])
    rw [s2, hD, hg]
    simp
  · obtain ⟨s1, -⟩ := getPathMsg_landing x.1 (targetOf x.1 (wgStart x.2 i now)) (by rw [m1, a17, hl])
    rw [s1]
    simp

/-! ## C37: the waypoint each mode chooses -/

/-- `w` is one metre away from `p`, exactly in the direction of `q` (at `p` itself if `q` is there). -/
def OneMetreTowards (p q w : V3 ℝ) : Prop :=
  (q = p → w = p) ∧
  (q ≠ p → (w.minus p).norm = 1 ∧ ∃ k : ℝ, 0 < k ∧ w = p.plus (V3.smul k (q.minus p)))

theorem oneMetreTowards_normalized (p q : V3 ℝ) : OneMetreTowards p q (p.plus (q.minus p).normalized) := by
  constructor
  · rintro rfl
    unfold V3.normalized V3.minus V3.plus V3.dot
    simp
  · intro h
    have hn : 0 < (q.minus p).norm := by
      rcases (V3.norm_nonneg (q.minus p)).lt_or_eq with h0 | h0
      · exact h0
      · exfalso
        apply h
        have hs := V3.norm_sq (q.minus p)
        rw [← h0] at hs
        unfold V3.dot V3.minus at hs
        dsimp only at hs
        have hx : q.x - p.x = 0 := by nlinarith [mul_self_nonneg (q.x - p.x), mul_self_nonneg (q.y - p.y), mul_self_nonneg (q.z - p.z)]
        have hy : q.y - p.y = 0 := by nlinarith [mul_self_nonneg (q.x - p.x), mul_self_nonneg (q.y - p.y), mul_self_nonneg (q.z - p.z)]
        have hz : q.z - p.z = 0 := by nlinarith [mul_self_nonneg (q.x - p.x), mul_self_nonneg (q.y - p.y), mul_self_nonneg (q.z - p.z)]
        cases p; cases q
        simp only [V3.mk.injEq] at *
        exact ⟨by linarith, by linarith, by linarith⟩
    have hsub : ((p.plus (q.minus p).normalized).minus p) = (q.minus p).normalized := by
      unfold V3.plus V3.minus
      simp
    refine ⟨by rw [hsub]; exact V3.normalized_norm hn, 1 / (q.minus p).norm, by positivity, ?_⟩
    congr 1
    have := V3.smul_normalized hn 1
    rw [← this]
    unfold V3.smul
    simp

/-- **C37, flying straight to the goal.** In `DIRECT` the chosen waypoint is one metre ahead towards
the goal, and the goal itself if that is within one metre (outside landing). -/
theorem C37_direct_waypoint (s : WgState) (i : WgIn) (now : ℝ) :
    let g := (wgCycle (.DIRECT, s) i now).2.out_goto
    (s.auto_land = false ∧ (i.goal.minus i.position).norm < 1 → g = i.goal) ∧
    (¬ (s.auto_land = false ∧ (i.goal.minus i.position).norm < 1) → OneMetreTowards i.position i.goal g) := by
  dsimp only
  rw [wgCycle_goto]
  have hD : goalDistance .DIRECT i = (i.goal.minus i.position).norm := by unfold goalDistance; rw [if_neg (by simp)]
  have hg : effectiveGoal .DIRECT i = i.goal := by unfold effectiveGoal; rw [if_neg (by simp)]
  obtain ⟨a1, a2, a3, a4, -⟩ := wgStart_spec s i now
  have ht : (targetOf .DIRECT (wgStart s i now)).out_goto = i.position.plus (i.goal.minus i.position).normalized := by
    show (wgStart s i now).position.plus ((wgStart s i now).goal.minus (wgStart s i now).position).normalized = _
    rw [a2, a4]
  dsimp only
  rw [hD, hg, ht]
  exact ⟨fun h => by rw [if_pos h], fun h => by rw [if_neg h]; exact oneMetreTowards_normalized _ _⟩

/-- **C37, following the path.** In `TRY_PATH` the chosen waypoint is one metre ahead towards the
setpoint on the planned path (see C31) for the time since the path was planned; without a setpoint
it is the own position; and a goal within one metre takes its place (outside landing). -/
theorem C37_path_waypoint (s : WgState) (i : WgIn) (now : ℝ) :
    let g := (wgCycle (.TRY_PATH, s) i now).2.out_goto
    (s.auto_land = false ∧ (i.goal.minus i.position).norm < 1 → g = i.goal) ∧
    (¬ (s.auto_land = false ∧ (i.goal.minus i.position).norm < 1) →
      (∀ v b q, s.planner.cruise_velocity = some v →
        getSetpointFromPath s.planner.path (now - s.planner.last_path_time) v = some (b, some q) →
        OneMetreTowards i.position q g) ∧
      (∀ v b, s.planner.cruise_velocity = some v →
        getSetpointFromPath s.planner.path (now - s.planner.last_path_time) v = some (b, none) →
        g = i.position) ∧
      (s.planner.path = [] → g = i.position)) := by
  dsimp only
  rw [wgCycle_goto]
  have hD : goalDistance .TRY_PATH i = (i.goal.minus i.position).norm := by unfold goalDistance; rw [if_neg (by simp)]
  have hg : effectiveGoal .TRY_PATH i = i.goal := by unfold effectiveGoal; rw [if_neg (by simp)]
  obtain ⟨a1, a2, a3, a4, a5, a6, a7, a8, a9, a10, -⟩ := wgStart_spec s i now
  have ht : (targetOf .TRY_PATH (wgStart s i now)).out_goto = (match (wgSetpoint s.planner now).2 with
      | some setpoint => i.position.plus (setpoint.minus i.position).normalized
      | none => i.position) := by
    show (match (wgSetpoint (wgStart s i now).planner (wgStart s i now).current_time).2 with
      | some setpoint => (wgStart s i now).position.plus (setpoint.minus (wgStart s i now).position).normalized
      | none => (wgStart s i now).position) = _
    rw [a1, a2, a10]
  dsimp only
  rw [hD, hg, ht]
  refine ⟨fun h => by rw [if_pos h], fun h => ?_⟩
  rw [if_neg h]
  refine ⟨?_, ?_, ?_⟩
  · intro v b q hv hq
    have : (wgSetpoint s.planner now).2 = some q := by unfold wgSetpoint; rw [hv]; dsimp only; rw [hq]; rfl
    rw [this]
    exact oneMetreTowards_normalized _ _
  · intro v b hv hq
    have : (wgSetpoint s.planner now).2 = none := by unfold wgSetpoint; rw [hv]; dsimp only; rw [hq]; rfl
    rw [this]
  · intro hp
    have : (wgSetpoint s.planner now).2 = none := by
      unfold wgSetpoint
      rw [hp]
      cases s.planner.cruise_velocity with
      | none => simp
      | some v => dsimp only; unfold getSetpointFromPath; simp
    rw [this]

/-- **C37, without a planned speed.** While the planner has not reported a finite cruise velocity, a planned path of exactly one
segment is followed to its end, and every other path is not followed: the chosen waypoint is one metre ahead towards the first
point of such a path, or else the own position. -/
theorem C37_path_no_speed (s : WgState) (i : WgIn) (now : ℝ) (hv : s.planner.cruise_velocity = none)
    (hnear : ¬ (s.auto_land = false ∧ (i.goal.minus i.position).norm < 1)) :
    let g := (wgCycle (.TRY_PATH, s) i now).2.out_goto
    (∀ a b, s.planner.path = [a, b] → OneMetreTowards i.position a g) ∧
    ((∀ a b, s.planner.path ≠ [a, b]) → g = i.position) := by
  dsimp only
  rw [wgCycle_goto]
  have hD : goalDistance .TRY_PATH i = (i.goal.minus i.position).norm := by unfold goalDistance; rw [if_neg (by simp)]
  obtain ⟨a1, a2, a3, a4, a5, a6, a7, a8, a9, a10, -⟩ := wgStart_spec s i now
  have ht : (targetOf .TRY_PATH (wgStart s i now)).out_goto = (match (wgSetpoint s.planner now).2 with
      | some setpoint => i.position.plus (setpoint.minus i.position).normalized
      | none => i.position) := by
    show (match (wgSetpoint (wgStart s i now).planner (wgStart s i now).current_time).2 with
      | some setpoint => (wgStart s i now).position.plus (setpoint.minus (wgStart s i now).position).normalized
      | none => (wgStart s i now).position) = _
    rw [a1, a2, a10]
  dsimp only
  rw [hD, ht, if_neg hnear]
  refine ⟨fun a b hp => ?_, fun hp => ?_⟩
  · have : (wgSetpoint s.planner now).2 = some a := by
      unfold wgSetpoint; rw [hv, hp]; simp
    rw [this]
    exact oneMetreTowards_normalized _ _
  · have : (wgSetpoint s.planner now).2 = none := by
      unfold wgSetpoint
      rw [hv]
      match hq : s.planner.path, hp with
      | [], _ => simp
      | [a], _ => simp
      | [a, b], hp => exact absurd rfl (hp a b)
      | a :: b :: c :: l, _ => simp
    rw [this]

/-- **C37, using a path without a planned speed.** Without a finite cruise velocity a path counts as usable exactly when it is one
segment. -/
theorem C37_usable_no_speed (p : PlannerInfo) (now : ℝ) (hv : p.cruise_velocity = none) :
    PathUsable p now ↔ ∃ a b, p.path = [a, b] := by
  unfold PathUsable wgSetpoint
  rw [hv]
  match p.path with
  | [] => simp
  | [a] => simp
  | [a, b] => simp
  | a :: b :: c :: l => simp

/-- **C37, changing altitude.** In offboard mode the chosen waypoint of an airborne vehicle is one
metre up if the goal is not below, else one metre down, and the own position on the ground.
Otherwise, while moving horizontally faster than 0.5 m/s, it is the own position; when slower, it is
at goal height above the place where the altitude change started (or was last too fast).  A goal
altitude within one metre (outside landing) takes the place of the waypoint. -/
theorem C37_altitude_waypoint (s : WgState) (i : WgIn) (now : ℝ) :
    let o := (wgCycle (.ALTITUDE_CHANGE, s) i now).2
    let near := s.auto_land = false ∧ goalDistance .ALTITUDE_CHANGE i < 1
    let start := if s.state_changed then i.position else s.change_altitude_pos.getD i.position
    (i.nav = .offboard →
      (near → o.out_goto = ⟨i.position.x, i.position.y, i.goal.z⟩) ∧
      (¬ near → i.airborne = true → i.position.z ≤ i.goal.z → o.out_goto = ⟨i.position.x, i.position.y, i.position.z + 1⟩) ∧
      (¬ near → i.airborne = true → i.goal.z < i.position.z → o.out_goto = ⟨i.position.x, i.position.y, i.position.z - 1⟩) ∧
      (¬ near → i.airborne = false → o.out_goto = i.position)) ∧
    (i.nav ≠ .offboard →
      (near → o.out_goto = i.goal) ∧
      (1 / 2 < i.velocity.normXY → (¬ near → o.out_goto = i.position) ∧ o.change_altitude_pos = some i.position) ∧
      (i.velocity.normXY ≤ 1 / 2 → (¬ near → o.out_goto = ⟨start.x, start.y, i.goal.z⟩) ∧
        (s.state_changed = true ∨ s.change_altitude_pos.isSome → o.change_altitude_pos = some start))) := by
  dsimp only
  obtain ⟨al, re, sc, ho⟩ := wgCycle_out (.ALTITUDE_CHANGE, s) i now
  have hca : (wgCycle (.ALTITUDE_CHANGE, s) i now).2.change_altitude_pos =
      (targetOf .ALTITUDE_CHANGE (wgStart s i now)).change_altitude_pos := by
    rw [ho]; exact (getPathMsg_frame _ _).change_alt
  rw [hca, wgCycle_goto]
  obtain ⟨a1, a2, a3, a4, a5, a6, a7, a8, a9, a10, a11, a12, a13, a14, a15, a16, a17, -⟩ := wgStart_spec s i now
  dsimp only
  generalize wgStart s i now = b at a1 a2 a3 a4 a5 a6 a7 a8 a9 a10 a11 a12 a13 a14 a15 a16 a17
  change (_ → _ ∧ _ ∧ _ ∧ _) ∧ _
  have hto : targetOf .ALTITUDE_CHANGE b = altTarget (altEnter b) := rfl
  rw [hto]
  have e1 : (altEnter b).nav = i.nav ∧ (altEnter b).position = i.position ∧ (altEnter b).goal = i.goal ∧
      (altEnter b).airborne = i.airborne ∧ (altEnter b).velocity = i.velocity ∧ (altEnter b).auto_land = s.auto_land ∧
      (altEnter b).change_altitude_pos = if s.state_changed = true then some i.position else s.change_altitude_pos := by
    unfold altEnter
    rw [a12]
    by_cases h : s.state_changed = true
    · rw [if_pos h, if_pos h]; exact ⟨a5, a2, a4, a9, a3, a17, by dsimp only; rw [a2]⟩
    · rw [if_neg h, if_neg h]; exact ⟨a5, a2, a4, a9, a3, a17, a14⟩
  generalize altEnter b = c at e1
  obtain ⟨c1, c2, c3, c4, c5, c6, c7⟩ := e1
  constructor
  · intro hn
    have hg : effectiveGoal .ALTITUDE_CHANGE i = ⟨i.position.x, i.position.y, i.goal.z⟩ := by
      unfold effectiveGoal; rw [if_pos ⟨rfl, hn⟩]
    have ht : (altTarget c).out_goto = ⟨i.position.x, i.position.y,
        if i.airborne then (if i.position.z ≤ i.goal.z then i.position.z + 1 else i.position.z - 1) else i.position.z⟩ := by
      unfold altTarget
      rw [c1, if_pos hn]
      dsimp only
      rw [c2, c3, c4]
    rw [hg, ht]
    refine ⟨fun h => by rw [if_pos h], fun h h1 h2 => ?_, fun h h1 h2 => ?_, fun h h1 => ?_⟩
    · rw [if_neg h, if_pos h1, if_pos h2]
    · rw [if_neg h, if_pos h1, if_neg (not_le.2 h2)]
    · rw [if_neg h, if_neg (by rw [h1]; simp)]
  · intro hn
    have hg : effectiveGoal .ALTITUDE_CHANGE i = i.goal := by
      unfold effectiveGoal; rw [if_neg (fun h => hn h.2)]
    rw [hg]
    refine ⟨fun h => by rw [if_pos h], fun h => ?_, fun h => ?_⟩
    · have ht : (altTarget c).out_goto = i.position ∧ (altTarget c).change_altitude_pos = some i.position := by
        unfold altTarget
        rw [c1, if_neg hn, c5, if_pos h]
        exact ⟨c2, by dsimp only; rw [c2]⟩
      exact ⟨fun h' => by rw [if_neg h', ht.1], ht.2⟩
    · have ht : (altTarget c).out_goto = (let p := c.change_altitude_pos.getD i.position; ⟨p.x, p.y, i.goal.z⟩) ∧
          (altTarget c).change_altitude_pos = c.change_altitude_pos := by
        unfold altTarget
        rw [c1, if_neg hn, c5, if_neg (not_lt.2 h)]
        dsimp only
        by_cases hl : c.auto_land = true
        · rw [if_pos hl]; rw [c2, c3]; exact ⟨rfl, rfl⟩
        · rw [if_neg hl]; rw [c2, c3]; exact ⟨rfl, rfl⟩
      have hs : c.change_altitude_pos.getD i.position =
          if s.state_changed = true then i.position else s.change_altitude_pos.getD i.position := by
        rw [c7]; split_ifs <;> rfl
      refine ⟨fun h' => ?_, fun h' => ?_⟩
      · rw [if_neg h', ht.1]; dsimp only; rw [hs]
      · rw [ht.2, c7]
        by_cases hsc : s.state_changed = true
        · rw [if_pos hsc, if_pos hsc]
        · rw [if_neg hsc, if_neg hsc]
          rcases h' with h' | h'
          · exact absurd h' hsc
          · obtain ⟨q, hq⟩ := Option.isSome_iff_exists.1 h'
            rw [hq]; rfl

/-- **C37, landing.** During a landing (not in offboard mode, horizontally slower than 0.5 m/s) the
published position is, without smoothing or speed limit, the point at goal height above the place
where the altitude change started. -/
theorem C37_landing_setpoint (s : WgState) (i : WgIn) (now : ℝ) (hl : s.auto_land = true)
    (hn : i.nav ≠ .offboard) (hv : i.velocity.normXY ≤ 1 / 2) :
    let start := if s.state_changed then i.position else s.change_altitude_pos.getD i.position
    (wgCycle (.ALTITUDE_CHANGE, s) i now).2.out_position = (⟨start.x, start.y, i.goal.z⟩ : V3 ℝ).fin := by
  dsimp only
  obtain ⟨al, re, sc, ho⟩ := wgCycle_out (.ALTITUDE_CHANGE, s) i now
  obtain ⟨m1, -⟩ := targetOf_more .ALTITUDE_CHANGE (wgStart s i now)
  obtain ⟨a1, a2, a3, a4, a5, a6, a7, a8, a9, a10, a11, a12, a13, a14, a15, a16, a17, -⟩ := wgStart_spec s i now
  rw [ho]
  dsimp only
  rw [getPathMsg_position, (getPathMsg_landing _ _ (by rw [m1, a17, hl])).2.2.2]
  congr 1
  show (altTarget (altEnter (wgStart s i now))).out_smoothed = _
  unfold altTarget altEnter
  by_cases h : s.state_changed = true
  · rw [if_pos h, a12, if_pos h]
    dsimp only
    rw [a5, if_neg hn, a3, if_neg (not_lt.2 hv), a17, hl, if_pos rfl]
    dsimp only
    rw [a2, a4]
    rfl
  · rw [if_neg h, a12, if_neg h, a5, if_neg hn, a3, if_neg (not_lt.2 hv), a17, hl, if_pos rfl]
    dsimp only
    rw [a2, a4, a14]

/-- **C37, velocity of the setpoint.** A velocity is published only during an altitude change outside
offboard mode: zero horizontally while braking (faster than 0.5 m/s), otherwise the one wanted by
the flight controller. -/
theorem C37_linear_velocity (x : PlannerState × WgState) (i : WgIn) (now : ℝ) :
    let v := (wgCycle x i now).2.out_linear_velocity
    (x.1 ≠ .ALTITUDE_CHANGE ∨ i.nav = .offboard → v = V3.nan) ∧
    (x.1 = .ALTITUDE_CHANGE → i.nav ≠ .offboard →
      (1 / 2 < i.velocity.normXY → v = ⟨some 0, some 0, none⟩) ∧
      (i.velocity.normXY ≤ 1 / 2 → v = i.desired_vel)) := by
  dsimp only
  obtain ⟨al, re, sc, ho⟩ := wgCycle_out x i now
  have hv : (wgCycle x i now).2.out_linear_velocity = (targetOf x.1 (wgStart x.2 i now)).out_linear_velocity := by
    rw [ho]; exact (getPathMsg_frame _ _).velocity_out
  obtain ⟨a1, a2, a3, a4, a5, a6, a7, a8, a9, a10, a11, a12, a13, a14, a15, a16, a17, a18, a19, a20, a21, a22, a23, a24⟩ :=
    wgStart_spec x.2 i now
  have hdv : (wgStart x.2 i now).desired_vel = i.desired_vel := by
    unfold wgStart wgUpdate
    rcases ha : i.airborne <;> rcases hs : x.2.smoothed_loc with _ | l <;> rcases hl : x.2.auto_land <;>
      simp [ha, hs, hl]
  rw [hv]
  generalize wgStart x.2 i now = b at a1 a2 a3 a4 a5 a6 a7 a8 a9 a10 a11 a12 a13 a14 a15 a16 a17 a24 hdv
  have e1 : (altEnter b).nav = i.nav ∧ (altEnter b).velocity = i.velocity ∧ (altEnter b).out_linear_velocity = V3.nan ∧
      (altEnter b).desired_vel = i.desired_vel := by
    unfold altEnter
    by_cases h : b.state_changed = true
    · rw [if_pos h]; exact ⟨a5, a3, a24, hdv⟩
    · rw [if_neg h]; exact ⟨a5, a3, a24, hdv⟩
  have key : ∀ c : WgState, c.nav = i.nav → c.velocity = i.velocity → c.out_linear_velocity = V3.nan →
      c.desired_vel = i.desired_vel →
      (i.nav = .offboard → (altTarget c).out_linear_velocity = V3.nan) ∧
      (i.nav ≠ .offboard → (1 / 2 < i.velocity.normXY → (altTarget c).out_linear_velocity = ⟨some 0, some 0, none⟩) ∧
        (i.velocity.normXY ≤ 1 / 2 → (altTarget c).out_linear_velocity = i.desired_vel)) := by
    intro c c1 c2 c3 c4
    unfold altTarget
    rw [c1, c2, c4]
    refine ⟨fun h => by rw [if_pos h]; exact c3, fun h => ⟨fun h' => ?_, fun h' => ?_⟩⟩
    · rw [if_neg h, if_pos h']
    · rw [if_neg h, if_neg (not_lt.2 h')]
      dsimp only
      split_ifs <;> rfl
  obtain ⟨k1, k2⟩ := key (altEnter b) e1.1 e1.2.1 e1.2.2.1 e1.2.2.2
  constructor
  · rintro (h | h)
    · cases hx : x.1 with
      | TRY_PATH => exact a24
      | ALTITUDE_CHANGE => exact absurd hx h
      | LOITER => exact a24
      | DIRECT => exact a24
    · cases hx : x.1 with
      | TRY_PATH => exact a24
      | ALTITUDE_CHANGE => exact k1 h
      | LOITER => exact a24
      | DIRECT => exact a24
  · intro h h'
    rw [h]
    exact k2 h'

/-! ## C38: the exact speed -/

/-- The time a cycle integrates over: since the previous cycle, or 0.1 ms if the clock did not advance. -/
noncomputable def cycleTime (s : WgState) (now : ℝ) : ℝ :=
  if s.current_time < now then now - s.current_time else 1 / 10000

theorem pathDt_target (st : PlannerState) (s : WgState) (i : WgIn) (now : ℝ) :
    pathDt (targetOf st (wgStart s i now)) = cycleTime s now := by
  obtain ⟨-, -, -, -, m5, -⟩ := targetOf_more st (wgStart s i now)
  obtain ⟨a1, a2, a3, a4, a5, a6, a7, a8, a9, a10, a11, -⟩ := wgStart_spec s i now
  rw [m5]
  unfold pathDt cycleTime
  rw [a10, a11]
  by_cases h : s.current_time < now
  · rw [if_pos h, if_pos (by linarith)]
  · rw [if_neg h, if_neg (by linarith)]

theorem altTarget_fcu (s : WgState) : (altTarget (altEnter s)).curr_yaw = s.curr_yaw ∧
    (altTarget (altEnter s)).curr_pitch = s.curr_pitch := by
  unfold altTarget altEnter
  rcases hc : s.state_changed <;> rcases hl : s.auto_land <;> simp only [Bool.false_eq_true, if_true, if_false]
  all_goals
    by_cases h1 : s.nav = .offboard
    · simp [h1]
    · by_cases h2 : s.velocity.normXY > 1 / 2
      · simp only [h1, h2, if_true, if_false]; simp
      · simp only [h1, h2, if_true, if_false, hl, Bool.false_eq_true]; simp

/-- **C38, exact speed.** With the time constant of 0.9 s, `α = dt/(0.9+dt)`, the new speed is `α`
times the wanted speed plus `1-α` times the old one, cut off at the goal distance.  The wanted speed is
the goal distance within one metre, otherwise the cruise speed (2 m/s without planner output) times the
field-of-view factor of the direction to the chosen waypoint, which an altitude change does not use. -/
theorem C38_speed_exact (x : PlannerState × WgState) (i : WgIn) (now : ℝ) (hl : x.2.auto_land = false) :
    let o := (wgCycle x i now).2
    let D := goalDistance x.1 i
    let α := cycleTime x.2 now / (9 / 10 + cycleTime x.2 now)
    let p := cartesianToPolarFCU o.out_goto i.position
    let f := if x.1 = .ALTITUDE_CHANGE then some 1
      else scaleToFOV x.2.fovs (wrapPolar ⟨p.e - i.pitch, p.z - 180 / Real.pi * i.yaw, p.r⟩)
    (D < 1 → o.speed = min (α * D + (1 - α) * x.2.speed) D) ∧
    (1 ≤ D → ∀ k, f = some k →
      o.speed = min (α * (x.2.planner.cruise_velocity.getD 2 * k) + (1 - α) * x.2.speed) D) := by
  dsimp only
  have hgo := wgCycle_goto x i now
  obtain ⟨al, re, sc, ho⟩ := wgCycle_out x i now
  have hsp : (wgCycle x i now).2.speed = (getPathMsg x.1 (targetOf x.1 (wgStart x.2 i now))).speed := by rw [ho]
  obtain ⟨m1, m2, m3, m4, m5, m6, m7⟩ := targetOf_more x.1 (wgStart x.2 i now)
  have hpos := (targetOf_reach x.1 (wgStart x.2 i now)).2.2.2
  obtain ⟨a1, a2, a3, a4, a5, a6, a7, a8, a9, a10, a11, a12, a13, a14, a15, a16, a17, a18, a19, a20, a21, a22, a23, a24⟩ :=
    wgStart_spec x.2 i now
  have hpitch : (wgStart x.2 i now).curr_pitch = i.pitch := by
    unfold wgStart wgUpdate
    rcases ha : i.airborne <;> rcases hs : x.2.smoothed_loc with _ | l <;> rcases hl : x.2.auto_land <;>
      simp [ha, hs, hl]
  obtain ⟨s1, -⟩ := getPathMsg_speed x.1 (targetOf x.1 (wgStart x.2 i now)) (by rw [m1, a17, hl])
  rw [pathDt_target, goalDistance_eq, m2, a18, m4, a1] at s1
  rw [hsp, s1]
  refine ⟨fun h => by rw [if_pos h], fun h k hk => ?_⟩
  rw [if_neg (not_lt.2 h)]
  rw [if_neg (fun hc => absurd hc.2 (not_lt.2 h))] at hgo
  rw [hgo] at hk
  congr 4
  unfold fovFactor
  by_cases hst : x.1 = .ALTITUDE_CHANGE
  · rw [if_pos hst] at hk
    rw [if_neg (by simpa using hst)]
    exact Option.some.inj hk
  · rw [if_neg hst] at hk
    rw [if_pos hst, m3, a23, hpos, a2]
    have hf : (targetOf x.1 (wgStart x.2 i now)).curr_yaw = i.yaw ∧
        (targetOf x.1 (wgStart x.2 i now)).curr_pitch = i.pitch := by
      cases hx : x.1 with
      | TRY_PATH => exact ⟨a20, hpitch⟩
      | ALTITUDE_CHANGE => exact absurd hx hst
      | LOITER => exact ⟨a20, hpitch⟩
      | DIRECT => exact ⟨a20, hpitch⟩
    rw [hf.1, hf.2, show radToDeg = 180 / Real.pi from rfl, hk]
    rfl

/-- Non-vacuity: the factor exists, e.g. it is 0 without cameras. -/
example : scaleToFOV ([] : List (FOV ℝ)) ⟨0, 0, 1⟩ = some 0 := rfl

/-! ## C39: the smoothing filter -/

/-- Filter state a cycle starts from: reset to the vehicle (at rest) on the ground, before the first
use and during a landing. -/
noncomputable def filterStart (s : WgState) (i : WgIn) : V3 ℝ × V3 ℝ :=
  match s.smoothed_loc with
  | none => (i.position, ⟨0, 0, 0⟩)
  | some l => if i.airborne = false ∨ s.auto_land = true then (i.position, ⟨0, 0, 0⟩) else (l, s.smoothed_vel)

theorem wgStart_filter (s : WgState) (i : WgIn) (now : ℝ) :
    (wgStart s i now).smoothed_loc = some (filterStart s i).1 ∧ (wgStart s i now).smoothed_vel = (filterStart s i).2 := by
  unfold wgStart wgUpdate filterStart
  rcases ha : i.airborne <;> rcases hs : s.smoothed_loc with _ | l <;> rcases hl : s.auto_land <;>
    simp [ha, hs, hl]

theorem targetOf_filter (st : PlannerState) (s : WgState) :
    (targetOf st s).smoothed_loc = s.smoothed_loc ∧ (targetOf st s).smoothed_vel = s.smoothed_vel ∧
    (targetOf st s).smoothing_speed_xy = s.smoothing_speed_xy ∧
    (targetOf st s).smoothing_speed_z = s.smoothing_speed_z ∧ (targetOf st s).velocity = s.velocity ∧
    (targetOf st s).heading_at_goal = s.heading_at_goal ∧ (targetOf st s).curr_yaw = s.curr_yaw := by
  cases st
  · exact ⟨rfl, rfl, rfl, rfl, rfl, rfl, rfl⟩
  · show (altTarget (altEnter s)).smoothed_loc = _ ∧ (altTarget (altEnter s)).smoothed_vel = _ ∧
      (altTarget (altEnter s)).smoothing_speed_xy = _ ∧ (altTarget (altEnter s)).smoothing_speed_z = _ ∧
      (altTarget (altEnter s)).velocity = _ ∧ (altTarget (altEnter s)).heading_at_goal = _ ∧
      (altTarget (altEnter s)).curr_yaw = _
    unfold altTarget altEnter
    rcases hc : s.state_changed <;> rcases hl : s.auto_land <;> simp only [Bool.false_eq_true, if_true, if_false]
    all_goals
      by_cases h1 : s.nav = .offboard
      · simp [h1]
      · by_cases h2 : s.velocity.normXY > 1 / 2
        · simp only [h1, h2, if_true, if_false]; simp
        · simp only [h1, h2, if_true, if_false, hl, Bool.false_eq_true]; simp
  · exact ⟨rfl, rfl, rfl, rfl, rfl, rfl, rfl⟩
  · exact ⟨rfl, rfl, rfl, rfl, rfl, rfl, rfl⟩

/-- Outside landing the message is computed by the three steps in this order. -/
theorem getPathMsg_steps (st : PlannerState) (s : WgState) (hl : s.auto_land = false) :
    ∃ ya yb, (getPathMsg st s) =
      (let m := smoothWaypoint (pathDt s) (adaptSpeed st (pathDt s)
        { s with out_adapted := s.out_goto, setpoint_yaw := ya, setpoint_yaw_velocity := yb })
       { m with out_position := m.out_smoothed.fin }) ∧
      ya = (nextSmoothYaw st (pathDt s) s).setpoint_yaw ∧
      yb = (nextSmoothYaw st (pathDt s) s).setpoint_yaw_velocity := by
  unfold getPathMsg
  dsimp only
  have hdt : pathDt { s with out_adapted := s.out_goto } = pathDt s := rfl
  rw [hdt]
  obtain ⟨ya, yb, hy⟩ := nextSmoothYaw_eq st (pathDt s) { s with out_adapted := s.out_goto }
  have hy' : (nextSmoothYaw st (pathDt s) { s with out_adapted := s.out_goto }).setpoint_yaw =
      (nextSmoothYaw st (pathDt s) s).setpoint_yaw ∧
      (nextSmoothYaw st (pathDt s) { s with out_adapted := s.out_goto }).setpoint_yaw_velocity =
      (nextSmoothYaw st (pathDt s) s).setpoint_yaw_velocity := by
    unfold nextSmoothYaw
    dsimp only
    by_cases h : s.smoothing_speed_xy ≤ 1 / 100
    · rw [if_pos h, if_pos h]; exact ⟨rfl, rfl⟩
    · rw [if_neg h, if_neg h]; exact ⟨rfl, rfl⟩
  rw [hy] at hy' ⊢
  dsimp only at hy' ⊢
  refine ⟨ya, yb, ?_, hy'.1, hy'.2⟩
  rw [if_neg (by rw [hl]; simp)]

/-- One axis of a critically damped second-order filter with stiffness `P`: position error and
velocity error act on the velocity, the new velocity on the position. -/
def DampedStep (P dt target wantedVel loc vel loc' vel' : ℝ) : Prop :=
  vel' = vel + dt * (P * (target - loc) + 2 * Real.sqrt P * (wantedVel - vel)) ∧ loc' = loc + dt * vel'

/-- **C39, the filter.** Outside landing, with smoothing, every cycle moves the published position by a
critically damped filter towards the speed-adapted waypoint, with the vehicle's velocity as velocity
target (zero if that waypoint is within 10 cm of the goal) and the horizontal and the vertical
smoothing parameter as stiffness.  The filter starts at the vehicle, at rest, on the ground. -/
theorem C39_filter_law (x : PlannerState × WgState) (i : WgIn) (now : ℝ) (hl : x.2.auto_land = false)
    (hxy : 1 / 100 ≤ x.2.smoothing_speed_xy) (hz : 1 / 100 ≤ x.2.smoothing_speed_z) :
    let o := (wgCycle x i now).2
    let dt := cycleTime x.2 now
    let f := filterStart x.2 i
    let wanted := if (o.out_adapted.minus (effectiveGoal x.1 i)).norm < 1 / 10 then ⟨0, 0, 0⟩ else i.velocity
    ∃ loc' vel' : V3 ℝ,
      DampedStep x.2.smoothing_speed_xy dt o.out_adapted.x wanted.x f.1.x f.2.x loc'.x vel'.x ∧
      DampedStep x.2.smoothing_speed_xy dt o.out_adapted.y wanted.y f.1.y f.2.y loc'.y vel'.y ∧
      DampedStep x.2.smoothing_speed_z dt o.out_adapted.z wanted.z f.1.z f.2.z loc'.z vel'.z ∧
      o.out_position = loc'.fin ∧ o.smoothed_loc = some loc' ∧ o.smoothed_vel = vel' := by
  dsimp only
  obtain ⟨al, re, sc, ho⟩ := wgCycle_out x i now
  obtain ⟨m1, -⟩ := targetOf_more x.1 (wgStart x.2 i now)
  obtain ⟨a1, a2, a3, a4, a5, a6, a7, a8, a9, a10, a11, a12, a13, a14, a15, a16, a17, a18, a19, a20, a21, a22, a23, a24⟩ :=
    wgStart_spec x.2 i now
  obtain ⟨w1, w2⟩ := wgStart_filter x.2 i now
  obtain ⟨t1, t2, t3, t4, t5, -⟩ := targetOf_filter x.1 (wgStart x.2 i now)
  have hg := targetOf_goal x.1 x.2 i now
  have hdt := pathDt_target x.1 x.2 i now
  rw [w1] at t1; rw [w2] at t2; rw [a21] at t3; rw [a22] at t4; rw [a3] at t5
  rw [ho]
  dsimp only
  generalize targetOf x.1 (wgStart x.2 i now) = g at m1 t1 t2 t3 t4 t5 hg hdt
  obtain ⟨ya, yb, he, -, -⟩ := getPathMsg_steps x.1 g (by rw [m1, a17, hl])
  rw [he, hdt]
  dsimp only
  set q : WgState := { g with out_adapted := g.out_goto, setpoint_yaw := ya, setpoint_yaw_velocity := yb } with hq
  have fr := adaptSpeed_frame x.1 (cycleTime x.2 now) q
  have hsm : (adaptSpeed x.1 (cycleTime x.2 now) q).smoothed_loc = some (filterStart x.2 i).1 ∧
      (adaptSpeed x.1 (cycleTime x.2 now) q).smoothed_vel = (filterStart x.2 i).2 := by
    unfold adaptSpeed
    dsimp only
    split_ifs <;> exact ⟨t1, t2⟩
  have g1 : (adaptSpeed x.1 (cycleTime x.2 now) q).smoothing_speed_xy = x.2.smoothing_speed_xy := fr.sxy.trans t3
  have g2 : (adaptSpeed x.1 (cycleTime x.2 now) q).smoothing_speed_z = x.2.smoothing_speed_z := fr.sz.trans t4
  have g3 : (adaptSpeed x.1 (cycleTime x.2 now) q).velocity = i.velocity := fr.velocity.trans t5
  have g4 : (adaptSpeed x.1 (cycleTime x.2 now) q).goal = effectiveGoal x.1 i := fr.goal.trans hg
  generalize adaptSpeed x.1 (cycleTime x.2 now) q = r at hsm g1 g2 g3 g4
  obtain ⟨-, -, hadp, -⟩ := smoothWaypoint_frame (cycleTime x.2 now) r
  rw [hadp]
  unfold smoothWaypoint
  have hno : ¬ (x.2.smoothing_speed_xy < 1 / 100 ∨ x.2.smoothing_speed_z < 1 / 100) := by
    push Not; exact ⟨hxy, hz⟩
  rw [g1, g2, if_neg hno, hsm.1]
  dsimp only
  rw [hsm.2, g3, g4]
  set w : V3 ℝ := if (r.out_adapted.minus (effectiveGoal x.1 i)).norm < 1 / 10 then ⟨0, 0, 0⟩ else i.velocity with hw
  refine ⟨_, _, ⟨?_, ?_⟩, ⟨?_, ?_⟩, ⟨?_, ?_⟩, rfl, rfl, rfl⟩
  all_goals
    unfold V3.plus V3.smul V3.minus
    dsimp only
    try ring

/-- **C39, landing.** During a landing the filter is kept at the vehicle, at rest, so that smoothing
resumes without a jump. -/
theorem C39_landing_resets (x : PlannerState × WgState) (i : WgIn) (now : ℝ) (hl : x.2.auto_land = true) :
    (wgCycle x i now).2.smoothed_loc = some i.position ∧ (wgCycle x i now).2.smoothed_vel = ⟨0, 0, 0⟩ := by
  obtain ⟨al, re, sc, ho⟩ := wgCycle_out x i now
  obtain ⟨m1, -⟩ := targetOf_more x.1 (wgStart x.2 i now)
  obtain ⟨a1, a2, a3, a4, a5, a6, a7, a8, a9, a10, a11, a12, a13, a14, a15, a16, a17, -⟩ := wgStart_spec x.2 i now
  obtain ⟨w1, w2⟩ := wgStart_filter x.2 i now
  obtain ⟨t1, t2, -⟩ := targetOf_filter x.1 (wgStart x.2 i now)
  have hf : filterStart x.2 i = (i.position, ⟨0, 0, 0⟩) := by
    unfold filterStart
    cases x.2.smoothed_loc with
    | none => rfl
    | some l => dsimp only; rw [if_pos (Or.inr hl)]
  rw [w1, hf] at t1; rw [w2, hf] at t2
  rw [ho]
  dsimp only
  unfold getPathMsg
  dsimp only
  generalize targetOf x.1 (wgStart x.2 i now) = g at m1 t1 t2
  obtain ⟨ya, yb, hy⟩ := nextSmoothYaw_eq x.1 (pathDt { g with out_adapted := g.out_goto }) { g with out_adapted := g.out_goto }
  rw [hy]
  dsimp only
  rw [if_pos (by rw [m1, a17, hl])]
  exact ⟨t1, t2⟩

/-- **C39, the yaw filter.** With smoothing the yaw follows the same critically damped law, with the
shortest turn to the desired yaw as error. -/
theorem C39_yaw_law (st : PlannerState) (dt : ℝ) (s : WgState) (desired : ℝ)
    (hs : 1 / 100 < s.smoothing_speed_xy)
    (hd : (st = .ALTITUDE_CHANGE → s.yaw_reach_height = some desired) ∧
      (st ≠ .ALTITUDE_CHANGE → desired =
        if (s.position.minus s.out_goto).normXY > 1 / 10 then nextYaw s.position s.out_goto else s.curr_yaw)) :
    let o := nextSmoothYaw st dt s
    o.setpoint_yaw_velocity = s.setpoint_yaw_velocity + dt * (s.smoothing_speed_xy * wrapPi (desired - s.setpoint_yaw) -
      2 * Real.sqrt s.smoothing_speed_xy * s.setpoint_yaw_velocity) ∧
    o.setpoint_yaw = wrapPi (s.setpoint_yaw + o.setpoint_yaw_velocity * dt) := by
  dsimp only
  have hdes : (if st = .ALTITUDE_CHANGE then s.yaw_reach_height
      else some (if (s.position.minus s.out_goto).normXY > 1 / 10 then nextYaw s.position s.out_goto else s.curr_yaw)) =
      some desired := by
    by_cases h : st = .ALTITUDE_CHANGE
    · rw [if_pos h]; exact hd.1 h
    · rw [if_neg h, hd.2 h]
  unfold nextSmoothYaw
  dsimp only
  rw [if_neg (not_le.2 hs), hdes]
  dsimp only
  refine ⟨by ring, rfl⟩

/-- **C39, heading at the goal.** Within one metre of the goal (outside landing) the yaw setpoint is
frozen at the heading with which the vehicle arrived; farther away that heading is forgotten. -/
theorem C39_heading_at_goal (x : PlannerState × WgState) (i : WgIn) (now : ℝ) (hl : x.2.auto_land = false) :
    let o := (wgCycle x i now).2
    (goalDistance x.1 i < 1 →
      o.setpoint_yaw = x.2.heading_at_goal.getD i.yaw ∧ o.heading_at_goal = some (x.2.heading_at_goal.getD i.yaw)) ∧
    (1 ≤ goalDistance x.1 i → o.heading_at_goal = none ∧
      o.setpoint_yaw = (nextSmoothYaw x.1 (cycleTime x.2 now) (targetOf x.1 (wgStart x.2 i now))).setpoint_yaw) := by
  dsimp only
  obtain ⟨al, re, sc, ho⟩ := wgCycle_out x i now
  obtain ⟨m1, -⟩ := targetOf_more x.1 (wgStart x.2 i now)
  obtain ⟨a1, a2, a3, a4, a5, a6, a7, a8, a9, a10, a11, a12, a13, a14, a15, a16, a17, a18, a19, a20, a21, a22, a23, a24⟩ :=
    wgStart_spec x.2 i now
  obtain ⟨t1, t2, t3, t4, t5, t6, t7⟩ := targetOf_filter x.1 (wgStart x.2 i now)
  have hh : (wgStart x.2 i now).heading_at_goal = x.2.heading_at_goal := by
    unfold wgStart wgUpdate
    rcases ha : i.airborne <;> rcases hs : x.2.smoothed_loc with _ | l <;> rcases hl : x.2.auto_land <;>
      simp [ha, hs, hl]
  rw [hh] at t6; rw [a20] at t7
  have hD := goalDistance_eq x.1 x.2 i now
  have hdt := pathDt_target x.1 x.2 i now
  rw [ho]
  dsimp only
  generalize targetOf x.1 (wgStart x.2 i now) = g at m1 t6 t7 hD hdt
  obtain ⟨ya, yb, he, hya, -⟩ := getPathMsg_steps x.1 g (by rw [m1, a17, hl])
  rw [he, ← hdt]
  dsimp only
  have hsw : ∀ (d : ℝ) (r : WgState), (smoothWaypoint d r).setpoint_yaw = r.setpoint_yaw ∧
      (smoothWaypoint d r).heading_at_goal = r.heading_at_goal := by
    intro d r
    unfold smoothWaypoint
    by_cases h : r.smoothing_speed_xy < 1 / 100 ∨ r.smoothing_speed_z < 1 / 100
    · rw [if_pos h]; exact ⟨rfl, rfl⟩
    · rw [if_neg h]
      rcases r.smoothed_loc with _ | l
      · exact ⟨rfl, rfl⟩
      · exact ⟨rfl, rfl⟩
  rw [(hsw _ _).1, (hsw _ _).2]
  unfold adaptSpeed
  dsimp only
  rw [hD]
  refine ⟨fun h => ?_, fun h => ?_⟩
  · rw [if_pos h]; dsimp only; rw [t6, t7]; exact ⟨rfl, rfl⟩
  · rw [if_neg (not_lt.2 h)]; exact ⟨rfl, hya⟩

/-- Over any number of cycles spent within one metre of the goal the heading stays what it was. -/
theorem C39_heading_constant (x : PlannerState × WgState) (h : ℝ) (hh : x.2.heading_at_goal = some h)
    (run : List ((WgState → WgState) × WgIn × ℝ))
    (hr : ∀ pre e post, run = pre ++ e :: post →
      (∃ p sxy sz fovs, e.1 = setInputs p sxy sz fovs) ∧ (wgRunAll x pre).2.auto_land = false ∧
      goalDistance (wgRunAll x pre).1 e.2.1 < 1) :
    (wgRunAll x run).2.heading_at_goal = some h ∧ (run ≠ [] → (wgRunAll x run).2.setpoint_yaw = h) := by
  induction run generalizing x with
  | nil => exact ⟨hh, fun hc => absurd rfl hc⟩
  | cons e rest ih =>
    obtain ⟨f, i, now⟩ := e
    obtain ⟨⟨p, sxy, sz, fovs, rfl⟩, h1, h2⟩ := hr [] (f, i, now) rest rfl
    obtain ⟨k1, -⟩ := C39_heading_at_goal (x.1, setInputs p sxy sz fovs x.2) i now h1
    obtain ⟨k2, k3⟩ := k1 h2
    have hsi : (setInputs p sxy sz fovs x.2).heading_at_goal = some h := hh
    dsimp only at k2 k3
    rw [hsi] at k2 k3
    have := ih (wgCycle (x.1, setInputs p sxy sz fovs x.2) i now) k3 (by
      intro pre e post he
      exact hr ((setInputs p sxy sz fovs, i, now) :: pre) e post (by rw [he]; rfl))
    refine ⟨this.1, fun _ => ?_⟩
    cases rest with
    | nil => exact k2
    | cons e' r' => exact this.2 (by simp)

/-- Non-vacuity: a vehicle 0.5 m from the goal with a stored heading, cycling once. -/
example : (wgInit ⟨0, 0, 0⟩ ⟨0, 0, 1 / 2⟩).auto_land = false ∧
    goalDistance .DIRECT ⟨⟨0, 0, 0⟩, ⟨0, 0, 0⟩, ⟨0, 0, 1 / 2⟩, 0, 0, .mission, false, false, V3.nan, false, true⟩ < 1 := by
  refine ⟨rfl, ?_⟩
  unfold goalDistance
  rw [if_neg (by simp)]
  unfold V3.norm V3.minus V3.dot
  rw [Real.sqrt_lt' (by norm_num)]
  norm_num

/-- Non-vacuity: with a one-segment path and no speed, three metres from the goal. -/
example : ∃ s : WgState, s.planner.cruise_velocity = none ∧ s.planner.path = [⟨1, 0, 0⟩, ⟨2, 0, 0⟩] ∧
    ¬ (s.auto_land = false ∧ ((⟨3, 0, 0⟩ : V3 ℝ).minus ⟨0, 0, 0⟩).norm < 1) := by
  refine ⟨{ wgInit ⟨0, 0, 0⟩ ⟨3, 0, 0⟩ with planner := ⟨[⟨1, 0, 0⟩, ⟨2, 0, 0⟩], 0, none⟩ }, rfl, rfl, fun h => ?_⟩
  have := h.2
  unfold V3.norm V3.minus V3.dot at this
  rw [Real.sqrt_lt' (by norm_num)] at this
  norm_num at this

end Avoidance
