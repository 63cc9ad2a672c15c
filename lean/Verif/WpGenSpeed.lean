import Verif.WpGenProps
import Verif.SimulatorProps
import Verif.PolarProps

/-!
# C37 (hovering), C38 (speed) of the local waypoint generator
-/

namespace Avoidance
open Classical

/-! ## What one computation of the message yields -/

theorem nextSmoothYaw_eq (st : PlannerState) (dt : ℝ) (s : WgState) :
    ∃ a b, nextSmoothYaw st dt s = { s with setpoint_yaw := a, setpoint_yaw_velocity := b } := by
  unfold nextSmoothYaw
  dsimp only
  by_cases h : s.smoothing_speed_xy ≤ 1 / 100
  · rw [if_pos h]; exact ⟨_, _, rfl⟩
  · rw [if_neg h]; exact ⟨_, _, rfl⟩

/-- The factor by which the speed is scaled outside the field of view. -/
noncomputable def fovFactor (st : PlannerState) (s : WgState) : ℝ :=
  if st ≠ .ALTITUDE_CHANGE then
    (scaleToFOV s.fovs (wrapPolar ⟨(cartesianToPolarFCU s.out_goto s.position).e - s.curr_pitch,
      (cartesianToPolarFCU s.out_goto s.position).z - radToDeg * s.curr_yaw,
      (cartesianToPolarFCU s.out_goto s.position).r⟩)).getD 0
  else 1

theorem adaptSpeed_eq (st : PlannerState) (dt : ℝ) (s : WgState) :
    let D := (s.goal.minus s.position).norm
    let a := adaptSpeed st dt s
    let w := a.out_goto.minus a.position
    a.speed = min (dt / (9 / 10 + dt) * (if D < 1 then D else s.planner.cruise_velocity.getD 2 * fovFactor st s) +
        (1 - dt / (9 / 10 + dt)) * s.speed) D ∧
    a.out_goto = (if D < 1 then s.goal else s.out_goto) ∧
    a.out_adapted = s.position.plus (V3.smul a.speed (if w.norm > 1 / 10 then w.normalized else w)) := by
  unfold adaptSpeed fovFactor
  dsimp only
  by_cases h : (s.goal.minus s.position).norm < 1
  · rw [if_pos h, if_pos h, if_pos h]; exact ⟨rfl, rfl, rfl⟩
  · rw [if_neg h, if_neg h, if_neg h]; exact ⟨rfl, rfl, rfl⟩

theorem getPathMsg_speed (st : PlannerState) (s : WgState) (hl : s.auto_land = false) :
    let D := (s.goal.minus s.position).norm
    let a := getPathMsg st s
    let w := a.out_goto.minus s.position
    a.speed = min (pathDt s / (9 / 10 + pathDt s) *
        (if D < 1 then D else s.planner.cruise_velocity.getD 2 * fovFactor st s) +
        (1 - pathDt s / (9 / 10 + pathDt s)) * s.speed) D ∧
    a.out_goto = (if D < 1 then s.goal else s.out_goto) ∧
    a.out_adapted = s.position.plus (V3.smul a.speed (if w.norm > 1 / 10 then w.normalized else w)) := by
  unfold getPathMsg
  dsimp only
  obtain ⟨ya, yb, hy⟩ := nextSmoothYaw_eq st (pathDt { s with out_adapted := s.out_goto })
    { s with out_adapted := s.out_goto }
  rw [hy]
  dsimp only
  rw [if_neg (by rw [hl]; simp)]
  obtain ⟨-, b1, b2, b3⟩ := smoothWaypoint_frame (pathDt { s with out_adapted := s.out_goto })
    (adaptSpeed st (pathDt { s with out_adapted := s.out_goto })
      { s with out_adapted := s.out_goto, setpoint_yaw := ya, setpoint_yaw_velocity := yb })
  rw [b1, b2, b3]
  have hp := (adaptSpeed_frame st (pathDt { s with out_adapted := s.out_goto })
      { s with out_adapted := s.out_goto, setpoint_yaw := ya, setpoint_yaw_velocity := yb }).position
  obtain ⟨c1, c2, c3⟩ := adaptSpeed_eq st (pathDt { s with out_adapted := s.out_goto })
      { s with out_adapted := s.out_goto, setpoint_yaw := ya, setpoint_yaw_velocity := yb }
  rw [hp] at c3
  exact ⟨c1, c2, c3⟩

theorem getPathMsg_landing (st : PlannerState) (s : WgState) (hl : s.auto_land = true) :
    (getPathMsg st s).out_goto = s.out_goto ∧ (getPathMsg st s).speed = s.speed ∧
    (getPathMsg st s).out_adapted = s.out_goto ∧ (getPathMsg st s).out_smoothed = s.out_smoothed := by
  unfold getPathMsg
  dsimp only
  obtain ⟨ya, yb, hy⟩ := nextSmoothYaw_eq st (pathDt { s with out_adapted := s.out_goto })
    { s with out_adapted := s.out_goto }
  rw [hy]
  dsimp only
  rw [if_pos hl]
  exact ⟨rfl, rfl, rfl, rfl⟩

theorem getPathMsg_position (st : PlannerState) (s : WgState) :
    (getPathMsg st s).out_position = (getPathMsg st s).out_smoothed.fin := rfl

theorem pathDt_pos (s : WgState) : 0 < pathDt s := by
  unfold pathDt; split_ifs with h
  · exact h
  · norm_num

/-- Cameras as the callers describe them: an opening angle, and an axis within a full turn. -/
def FovsOk (fovs : List (FOV ℝ)) : Prop := ∀ f ∈ fovs, 0 < f.hFov ∧ |f.yaw| ≤ 360

theorem fovFactor_range (st : PlannerState) (s : WgState) (h : FovsOk s.fovs) :
    0 ≤ fovFactor st s ∧ fovFactor st s ≤ 1 := by
  unfold fovFactor
  by_cases hst : st ≠ .ALTITUDE_CHANGE
  · rw [if_pos hst]
    obtain ⟨-, ⟨z1, z2⟩, -⟩ := C03_wrapPolar_range (⟨(cartesianToPolarFCU s.out_goto s.position).e - s.curr_pitch,
      (cartesianToPolarFCU s.out_goto s.position).z - radToDeg * s.curr_yaw,
      (cartesianToPolarFCU s.out_goto s.position).r⟩ : PolarPoint ℝ)
    generalize wrapPolar (_ : PolarPoint ℝ) = p at z1 z2 ⊢
    obtain ⟨x, r, hx, -, h0, h1, -⟩ := C13_scaleToFOV s.fovs p (fun f hf => (h f hf).1) (fun f hf => by
      have := abs_le.1 (h f hf).2
      rw [abs_le]; constructor <;> linarith)
    rw [hx]; exact ⟨h0, h1⟩
  · rw [if_neg hst]; norm_num

theorem V3.normalized_norm {a : V3 ℝ} (h : 0 < a.norm) : a.normalized.norm = 1 := by
  have h2 : 0 < a.dot a := by rw [← V3.norm_sq]; positivity
  unfold V3.normalized
  rw [if_pos h2, V3.norm_smul, abs_of_pos (by positivity)]
  field_simp

theorem V3.smul_normalized {a : V3 ℝ} (h : 0 < a.norm) (k : ℝ) :
    V3.smul k a.normalized = V3.smul (k / a.norm) a := by
  have h2 : 0 < a.dot a := by rw [← V3.norm_sq]; positivity
  unfold V3.normalized
  rw [if_pos h2]
  unfold V3.smul
  simp only [V3.mk.injEq]
  refine ⟨?_, ?_, ?_⟩ <;> ring

/-! ## C38: the speed -/

/-- The speed used by one cycle in mode `st` (before any waypoint is published). -/
theorem wgCycle_out (x : PlannerState × WgState) (i : WgIn) (now : ℝ) :
    ∃ al re sc, (wgCycle x i now).2 =
      { getPathMsg x.1 (targetOf x.1 (wgStart x.2 i now)) with
        auto_land := al, reach_altitude_offboard := re, state_changed := sc } := by
  obtain ⟨al, re, sc, h, -⟩ := wgRun_out x.1 (wgStart x.2 i now)
  refine ⟨al, re, sc, ?_⟩
  rw [← h, wgCycle_eq]
  rfl

theorem targetOf_more (st : PlannerState) (s : WgState) :
    (targetOf st s).auto_land = s.auto_land ∧ (targetOf st s).speed = s.speed ∧
    (targetOf st s).fovs = s.fovs ∧ (targetOf st s).planner = s.planner ∧
    pathDt (targetOf st s) = pathDt s ∧
    (st ≠ .ALTITUDE_CHANGE → (targetOf st s).goal = s.goal) ∧
    (s.nav ≠ .offboard → (targetOf st s).goal = s.goal) := by
  cases st
  · exact ⟨rfl, rfl, rfl, rfl, rfl, fun _ => rfl, fun _ => rfl⟩
  · obtain ⟨f1, f2, f3, f4, f5, f6, f7, f8, f9, f10, f11, f12, f13, f14, f15⟩ := altTarget_frame s
    refine ⟨f10, f11, f12, f9, ?_, fun h => absurd rfl h, fun h => ?_⟩
    · unfold pathDt; rw [show (targetOf .ALTITUDE_CHANGE s) = altTarget (altEnter s) from rfl, f13, f14]
    · show (altTarget (altEnter s)).goal = _
      unfold altTarget altEnter
      rcases hc : s.state_changed <;> rcases hl : s.auto_land <;>
        simp only [Bool.false_eq_true, if_true, if_false, h] <;>
        by_cases h2 : s.velocity.normXY > 1 / 2 <;> simp only [h2, hl, if_true, if_false, Bool.false_eq_true]
  · exact ⟨rfl, rfl, rfl, rfl, rfl, fun _ => rfl, fun _ => rfl⟩
  · exact ⟨rfl, rfl, rfl, rfl, rfl, fun _ => rfl, fun _ => rfl⟩

theorem altTarget_goal (s : WgState) (h : s.nav = .offboard) :
    (altTarget (altEnter s)).goal = ⟨s.position.x, s.position.y, s.goal.z⟩ ∧
    (altTarget (altEnter s)).out_goto.x = s.position.x ∧ (altTarget (altEnter s)).out_goto.y = s.position.y := by
  unfold altTarget altEnter
  rcases hc : s.state_changed <;> simp only [Bool.false_eq_true, if_true, if_false, h] <;> simp

/-- The goal distance that limits the speed: to the goal itself, except that an offboard altitude
change aims at the goal altitude above the own position. -/
noncomputable def goalDistance (st : PlannerState) (i : WgIn) : ℝ :=
  if st = .ALTITUDE_CHANGE ∧ i.nav = .offboard then |i.goal.z - i.position.z|
  else (i.goal.minus i.position).norm

theorem goalDistance_eq (st : PlannerState) (s : WgState) (i : WgIn) (now : ℝ) :
    ((targetOf st (wgStart s i now)).goal.minus (targetOf st (wgStart s i now)).position).norm =
      goalDistance st i := by
  obtain ⟨a1, a2, a3, a4, a5, -⟩ := wgStart_spec s i now
  obtain ⟨-, -, -, -, -, m6, m7⟩ := targetOf_more st (wgStart s i now)
  rw [(targetOf_reach st _).2.2.2, a2]
  unfold goalDistance
  by_cases h1 : st = .ALTITUDE_CHANGE
  · by_cases h2 : i.nav = .offboard
    · rw [if_pos ⟨h1, h2⟩]
      subst h1
      have := (altTarget_goal (wgStart s i now) (by rw [a5, h2])).1
      rw [show targetOf .ALTITUDE_CHANGE (wgStart s i now) = altTarget (altEnter (wgStart s i now)) from rfl,
        this, a2, a4]
      unfold V3.norm V3.minus V3.dot
      simp only [sub_self, mul_zero, zero_add]
      exact Real.sqrt_mul_self_eq_abs _
    · rw [if_neg (fun h => h2 h.2), m7 (by rw [a5]; exact h2), a4]
  · rw [if_neg (fun h => h1 h.1), m6 h1, a4]

/-- **C38, one cycle.** Outside landing, the new speed is the low-pass filtered cruise speed (scaled
by how far the waypoint is inside the field of view; 0 outside), or the goal distance within one
metre, and never exceeds the goal distance; the speed-adapted waypoint lies in the direction of the
chosen waypoint, at the distance `speed` from the vehicle (closer only if the chosen waypoint itself
is within 10 cm), and within one metre the chosen waypoint is the goal. -/
theorem C38_speed_step (x : PlannerState × WgState) (i : WgIn) (now : ℝ)
    (hl : x.2.auto_land = false) (hf : FovsOk x.2.fovs) (h0 : 0 ≤ x.2.speed)
    (hc : ∀ c, x.2.planner.cruise_velocity = some c → 0 ≤ c) :
    let o := (wgCycle x i now).2
    let D := goalDistance x.1 i
    let w := o.out_goto.minus i.position
    0 ≤ o.speed ∧ o.speed ≤ D ∧
    (1 ≤ D → ∃ f α : ℝ, 0 ≤ f ∧ f ≤ 1 ∧ 0 < α ∧ α < 1 ∧ (x.1 = .ALTITUDE_CHANGE → f = 1) ∧
      o.speed = min (α * (x.2.planner.cruise_velocity.getD 2 * f) + (1 - α) * x.2.speed) D) ∧
    (o.out_adapted.minus i.position).norm ≤ o.speed ∧
    (1 / 10 < w.norm → (o.out_adapted.minus i.position).norm = o.speed) ∧
    (∃ k : ℝ, 0 ≤ k ∧ o.out_adapted = i.position.plus (V3.smul k w)) ∧
    (D < 1 → ¬ (x.1 = .ALTITUDE_CHANGE ∧ i.nav = .offboard) → o.out_goto = i.goal) := by
  dsimp only
  obtain ⟨al, re, sc, ho⟩ := wgCycle_out x i now
  obtain ⟨a1, a2, a3, a4, a5, a6, a7, a8, a9, a10, a11, a12, a13, a14, a15, a16, a17, a18, a19, a20, a21, a22, a23, a24⟩ :=
    wgStart_spec x.2 i now
  obtain ⟨m1, m2, m3, m4, m5, m6, m7⟩ := targetOf_more x.1 (wgStart x.2 i now)
  have hD := goalDistance_eq x.1 x.2 i now
  have hpos := (targetOf_reach x.1 (wgStart x.2 i now)).2.2.2
  generalize hg : targetOf x.1 (wgStart x.2 i now) = g at ho m1 m2 m3 m4 m5 m6 m7 hD hpos
  obtain ⟨s1, s2, s3⟩ := getPathMsg_speed x.1 g (by rw [m1, a17, hl])
  rw [ho]
  dsimp only
  obtain ⟨f0, f1⟩ := fovFactor_range x.1 g (by rw [m3, a23]; exact hf)
  have hdt := pathDt_pos g
  have ha0 : 0 < pathDt g / (9 / 10 + pathDt g) := by positivity
  have ha1 : pathDt g / (9 / 10 + pathDt g) < 1 := by rw [div_lt_one (by positivity)]; linarith
  rw [hD] at s1 s2
  rw [m2, a18, m4, a1] at s1
  rw [hpos, a2] at s3
  have hDn : 0 ≤ goalDistance x.1 i := by rw [← hD]; exact V3.norm_nonneg _
  have hcn : 0 ≤ x.2.planner.cruise_velocity.getD 2 := by
    rcases hcv : x.2.planner.cruise_velocity with _ | c
    · norm_num
    · exact hc c hcv
  generalize hal : pathDt g / (9 / 10 + pathDt g) = al' at s1 ha0 ha1
  have hsp : 0 ≤ (getPathMsg x.1 g).speed := by
    rw [s1]
    refine le_min (add_nonneg (mul_nonneg ha0.le ?_) (mul_nonneg (by linarith) h0)) hDn
    split_ifs
    · exact hDn
    · exact mul_nonneg hcn f0
  have hsub : ∀ v : V3 ℝ, ((i.position.plus v).minus i.position) = v := fun v => by
    unfold V3.plus V3.minus
    cases v; simp
  refine ⟨hsp, by rw [s1]; exact min_le_right _ _, fun hD1 => ⟨fovFactor x.1 g, al', f0, f1, ha0, ha1, ?_, ?_⟩,
    ?_, ?_, ?_, ?_⟩
  · intro h; unfold fovFactor; rw [if_neg (by simp [h])]
  · rw [s1, if_neg (not_lt.2 hD1)]
  · rw [s3, hsub, V3.norm_smul, abs_of_nonneg hsp]
    split_ifs with h
    · have := V3.normalized_norm_le ((getPathMsg x.1 g).out_goto.minus i.position)
      nlinarith
    · push Not at h
      nlinarith [V3.norm_nonneg ((getPathMsg x.1 g).out_goto.minus i.position)]
  · intro h
    rw [s3, hsub, V3.norm_smul, abs_of_nonneg hsp, if_pos h, V3.normalized_norm (by linarith), mul_one]
  · rw [s3]
    split_ifs with h
    · refine ⟨(getPathMsg x.1 g).speed / ((getPathMsg x.1 g).out_goto.minus i.position).norm,
        div_nonneg hsp (V3.norm_nonneg _), ?_⟩
      rw [V3.smul_normalized (by linarith)]
    · exact ⟨(getPathMsg x.1 g).speed, hsp, rfl⟩
  · intro hlt hne
    rw [s2, if_pos hlt]
    by_cases h1 : x.1 = .ALTITUDE_CHANGE
    · rw [m7 (by rw [a5]; exact fun h => hne ⟨h1, h⟩), a4]
    · rw [m6 h1, a4]

/-- What may happen between two cycles: new planner output, smoothing parameters and fields of view,
all of them within limits (cruise speeds between 0 and `V`, cameras as in `FovsOk`). -/
def InputsOk (V : ℝ) (f : WgState → WgState) : Prop :=
  ∃ p sxy sz fovs, f = setInputs p sxy sz fovs ∧ FovsOk fovs ∧
    ∀ c, p.cruise_velocity = some c → 0 ≤ c ∧ c ≤ V

theorem C38_speed_cycle (V : ℝ) (hV : 2 ≤ V) (x : PlannerState × WgState) (i : WgIn) (now : ℝ)
    (hf : FovsOk x.2.fovs) (h0 : 0 ≤ x.2.speed) (h1 : x.2.speed ≤ V)
    (hc : ∀ c, x.2.planner.cruise_velocity = some c → 0 ≤ c ∧ c ≤ V) :
    0 ≤ (wgCycle x i now).2.speed ∧ (wgCycle x i now).2.speed ≤ V := by
  cases hl : x.2.auto_land
  · obtain ⟨b1, b2, b3, -⟩ := C38_speed_step x i now hl hf h0 (fun c h => (hc c h).1)
    refine ⟨b1, ?_⟩
    by_cases hD : 1 ≤ goalDistance x.1 i
    · obtain ⟨f, α, f0, f1, a0, a1, -, e⟩ := b3 hD
      rw [e]
      refine (min_le_left _ _).trans ?_
      have : x.2.planner.cruise_velocity.getD 2 ≤ V ∧ 0 ≤ x.2.planner.cruise_velocity.getD 2 := by
        rcases hcv : x.2.planner.cruise_velocity with _ | c
        · exact ⟨hV, by norm_num⟩
        · exact ⟨(hc c hcv).2, (hc c hcv).1⟩
      have : x.2.planner.cruise_velocity.getD 2 * f ≤ V := by nlinarith
      nlinarith
    · push Not at hD; linarith
  · obtain ⟨al, re, sc, ho⟩ := wgCycle_out x i now
    obtain ⟨m1, m2, -⟩ := targetOf_more x.1 (wgStart x.2 i now)
    obtain ⟨a1, a2, a3, a4, a5, a6, a7, a8, a9, a10, a11, a12, a13, a14, a15, a16, a17, a18, -⟩ := wgStart_spec x.2 i now
    rw [ho]
    dsimp only
    rw [(getPathMsg_landing x.1 _ (by rw [m1, a17, hl])).2.1, m2, a18]
    exact ⟨h0, h1⟩

/-- **C38, all runs.** If the planner's cruise speeds stay between 0 and `V` (at least the 2 m/s used
before there is a planner output), so does the speed of every waypoint, after any number of cycles,
whatever the vehicle does and whatever the modes. -/
theorem C38_speed_bound (V : ℝ) (hV : 2 ≤ V) (x : PlannerState × WgState) (h0 : 0 ≤ x.2.speed)
    (h1 : x.2.speed ≤ V) (run : List ((WgState → WgState) × WgIn × ℝ)) (hr : ∀ e ∈ run, InputsOk V e.1) :
    0 ≤ (wgRunAll x run).2.speed ∧ (wgRunAll x run).2.speed ≤ V := by
  induction run generalizing x with
  | nil => exact ⟨h0, h1⟩
  | cons e rest ih =>
    obtain ⟨f, i, now⟩ := e
    obtain ⟨p, sxy, sz, fovs, rfl, hf, hc⟩ := hr (f, i, now) (by simp)
    have := C38_speed_cycle V hV (x.1, setInputs p sxy sz fovs x.2) i now hf h0 h1 hc
    exact ih _ this.1 this.2 (fun e he => hr e (by simp [he]))

/-- Without a usable field of view in the direction of flight the speed decays: the new speed is at
most the old one times `1 - α`, where `α = dt/(0.9+dt)`. -/
theorem C38_speed_decays_outside_fov (x : PlannerState × WgState) (i : WgIn) (now : ℝ)
    (hl : x.2.auto_land = false) (hfov : x.2.fovs = []) (hst : x.1 ≠ .ALTITUDE_CHANGE)
    (hD : 1 ≤ (i.goal.minus i.position).norm) (hnow : x.2.current_time < now) :
    (wgCycle x i now).2.speed ≤
      (1 - (now - x.2.current_time) / (9 / 10 + (now - x.2.current_time))) * x.2.speed := by
  obtain ⟨al, re, sc, ho⟩ := wgCycle_out x i now
  obtain ⟨a1, a2, a3, a4, a5, a6, a7, a8, a9, a10, a11, a12, a13, a14, a15, a16, a17, a18, a19, a20, a21, a22, a23, a24⟩ :=
    wgStart_spec x.2 i now
  obtain ⟨m1, m2, m3, m4, m5, m6, m7⟩ := targetOf_more x.1 (wgStart x.2 i now)
  have hDe := goalDistance_eq x.1 x.2 i now
  have hdt : pathDt (targetOf x.1 (wgStart x.2 i now)) = now - x.2.current_time := by
    rw [m5]; unfold pathDt; rw [a10, a11, if_pos (by linarith)]
  rw [ho]
  dsimp only
  obtain ⟨s1, -⟩ := getPathMsg_speed x.1 (targetOf x.1 (wgStart x.2 i now)) (by rw [m1, a17, hl])
  rw [s1, hDe, hdt, m2, a18]
  refine (min_le_left _ _).trans ?_
  have hff : fovFactor x.1 (targetOf x.1 (wgStart x.2 i now)) = 0 := by
    unfold fovFactor
    rw [if_pos hst, m3, a23, hfov]
    rfl
  have hgd : goalDistance x.1 i = (i.goal.minus i.position).norm := by
    unfold goalDistance; rw [if_neg (fun h => hst h.1)]
  rw [hff, hgd, if_neg (not_lt.2 hD)]
  simp

/-! ## C37: hovering, climbing and landing -/

/-- **C37, hovering.** A cycle in `LOITER` hovers: the hover position is the position of the first
cycle in that mode and does not change afterwards; the chosen waypoint is the hover position, except
that a goal within one metre takes its place (outside landing). -/
theorem C37_hover (s : WgState) (i : WgIn) (now : ℝ) :
    let o := (wgCycle (.LOITER, s) i now).2
    let h := if s.state_changed then i.position else s.hover_position.getD i.position
    o.hover_position = some h ∧
    o.out_goto = (if s.auto_land = false ∧ (i.goal.minus i.position).norm < 1 then i.goal else h) ∧
    (i.stay = true → o.state_changed = false) := by
  dsimp only
  obtain ⟨a1, a2, a3, a4, a5, a6, a7, a8, a9, a10, a11, a12, a13, a14, a15, a16, a17, a18, a19, a20, a21, a22, a23, a24⟩ :=
    wgStart_spec s i now
  obtain ⟨al, re, sc, ho⟩ := wgCycle_out (.LOITER, s) i now
  have hh : (targetOf .LOITER (wgStart s i now)).hover_position =
      some (if s.state_changed = true then i.position else s.hover_position.getD i.position) ∧
      (targetOf .LOITER (wgStart s i now)).out_goto =
      (if s.state_changed = true then i.position else s.hover_position.getD i.position) := by
    unfold targetOf; dsimp only; rw [a12, a2, a13]; exact ⟨rfl, rfl⟩
  have e := getPathMsg_frame .LOITER (targetOf .LOITER (wgStart s i now))
  refine ⟨?_, ?_, ?_⟩
  · rw [ho]; dsimp only; rw [e.hover, hh.1]
  · rw [ho]; dsimp only
    cases hl : s.auto_land
    · obtain ⟨-, s2, -⟩ := getPathMsg_speed .LOITER (targetOf .LOITER (wgStart s i now)) (by
        show (wgStart s i now).auto_land = false; rw [a17, hl])
      rw [s2, hh.2]
      show (if ((wgStart s i now).goal.minus (wgStart s i now).position).norm < 1 then (wgStart s i now).goal else _) = _
      rw [a4, a2]
      simp
    · obtain ⟨s1, -⟩ := getPathMsg_landing .LOITER (targetOf .LOITER (wgStart s i now)) (by
        show (wgStart s i now).auto_land = true; rw [a17, hl])
      rw [s1, hh.2]
      simp
  · intro hs
    rw [wgCycle_eq]
    show (wgRun .LOITER (wgStart s i now)).2.state_changed = false
    unfold wgRun
    dsimp only
    rw [runLoiter_transition, a8, hs]
    rfl

/-- Consequently the hover position is constant for as long as the loiter request lasts: from the
cycle after entry on, any number of cycles leave it unchanged. -/
theorem C37_hover_constant (s : WgState) (h : V3 ℝ) (hh : s.hover_position = some h)
    (hsc : s.state_changed = false) (run : List ((WgState → WgState) × WgIn × ℝ))
    (hr : ∀ e ∈ run, (∃ p sxy sz fovs, e.1 = setInputs p sxy sz fovs) ∧ e.2.1.stay = true) :
    (wgRunAll (.LOITER, s) run).1 = .LOITER ∧ (wgRunAll (.LOITER, s) run).2.hover_position = some h := by
  induction run generalizing s with
  | nil => exact ⟨rfl, hh⟩
  | cons e rest ih =>
    obtain ⟨f, i, now⟩ := e
    obtain ⟨⟨p, sxy, sz, fovs, rfl⟩, hs⟩ := hr (f, i, now) (by simp)
    dsimp only at hs
    obtain ⟨c1, -, c3⟩ := C37_hover (setInputs p sxy sz fovs s) i now
    have c0 : (wgCycle (.LOITER, setInputs p sxy sz fovs s) i now).1 = .LOITER := by
      rw [C37_next_state]; simp [hs]
    have hsc' : (setInputs p sxy sz fovs s).state_changed = false := hsc
    have hh' : (setInputs p sxy sz fovs s).hover_position = some h := hh
    rw [hsc', hh'] at c1
    have := ih (wgCycle (.LOITER, setInputs p sxy sz fovs s) i now).2 (by rw [c1]; rfl) (c3 hs)
      (fun e he => hr e (by simp [he]))
    unfold wgRunAll
    rw [show wgCycle ((PlannerState.LOITER, s).1, setInputs p sxy sz fovs (PlannerState.LOITER, s).2) i now =
      (.LOITER, (wgCycle (.LOITER, setInputs p sxy sz fovs s) i now).2) from Prod.ext c0 rfl]
    exact this

/-- **C37, climbing in offboard mode.** During an offboard altitude change the chosen waypoint and the
speed-adapted one are vertically above or below the vehicle. -/
theorem C37_offboard_vertical (s : WgState) (i : WgIn) (now : ℝ) (hn : i.nav = .offboard) :
    let o := (wgCycle (.ALTITUDE_CHANGE, s) i now).2
    (o.out_goto.x = i.position.x ∧ o.out_goto.y = i.position.y) ∧
    (o.out_adapted.x = i.position.x ∧ o.out_adapted.y = i.position.y) := by
  dsimp only
  obtain ⟨a1, a2, a3, a4, a5, a6, a7, a8, a9, a10, a11, a12, a13, a14, a15, a16, a17, a18, a19, a20, a21, a22, a23, a24⟩ :=
    wgStart_spec s i now
  obtain ⟨al, re, sc, ho⟩ := wgCycle_out (.ALTITUDE_CHANGE, s) i now
  obtain ⟨g1, g2, g3⟩ := altTarget_goal (wgStart s i now) (by rw [a5, hn])
  rw [a2] at g1 g2 g3
  obtain ⟨m1, -⟩ := targetOf_more .ALTITUDE_CHANGE (wgStart s i now)
  have hpos := (targetOf_reach .ALTITUDE_CHANGE (wgStart s i now)).2.2.2
  rw [ho]
  dsimp only
  have htx : (targetOf .ALTITUDE_CHANGE (wgStart s i now)) = altTarget (altEnter (wgStart s i now)) := rfl
  rw [htx] at m1 hpos ⊢
  cases hl : s.auto_land
  · obtain ⟨-, s2, s3⟩ := getPathMsg_speed .ALTITUDE_CHANGE (altTarget (altEnter (wgStart s i now)))
      (by rw [m1, a17, hl])
    have hx : (getPathMsg .ALTITUDE_CHANGE (altTarget (altEnter (wgStart s i now)))).out_goto.x = i.position.x ∧
        (getPathMsg .ALTITUDE_CHANGE (altTarget (altEnter (wgStart s i now)))).out_goto.y = i.position.y := by
      rw [s2]; split_ifs
      · rw [g1]; exact ⟨rfl, rfl⟩
      · exact ⟨g2, g3⟩
    refine ⟨hx, ?_⟩
    rw [s3, hpos, a2]
    generalize (getPathMsg .ALTITUDE_CHANGE (altTarget (altEnter (wgStart s i now)))).out_goto = q at hx
    generalize (getPathMsg .ALTITUDE_CHANGE (altTarget (altEnter (wgStart s i now)))).speed = k
    have h0 : (q.minus i.position).x = 0 ∧ (q.minus i.position).y = 0 := by
      unfold V3.minus; exact ⟨by simp [hx.1], by simp [hx.2]⟩
    have hn0 : (q.minus i.position).normalized.x = 0 ∧ (q.minus i.position).normalized.y = 0 := by
      unfold V3.normalized
      split_ifs
      · unfold V3.smul; simp [h0.1, h0.2]
      · exact h0
    split_ifs
    · unfold V3.plus V3.smul; simp [hn0.1, hn0.2]
    · unfold V3.plus V3.smul; simp [h0.1, h0.2]
  · obtain ⟨s1, -, s3, -⟩ := getPathMsg_landing .ALTITUDE_CHANGE (altTarget (altEnter (wgStart s i now)))
      (by rw [m1, a17, hl])
    rw [s1, s3]
    exact ⟨⟨g2, g3⟩, g2, g3⟩

/-- **C37, position and path of the setpoint (finding).** While the landing flag is set, a cycle in any
mode other than `ALTITUDE_CHANGE` publishes the position of the cycle before again: a loiter request
during a landing leaves the setpoint at the landing point instead of the hover position, and
`LOITER` never re-evaluates the flag. -/
theorem C37_landing_setpoint_stale (st : PlannerState) (s : WgState) (i : WgIn) (now : ℝ)
    (hst : st ≠ .ALTITUDE_CHANGE) (hl : s.auto_land = true) :
    (wgCycle (st, s) i now).2.out_position = s.out_smoothed.fin ∧
    (st = .LOITER → (wgCycle (st, s) i now).2.auto_land = true) := by
  obtain ⟨a1, a2, a3, a4, a5, a6, a7, a8, a9, a10, a11, a12, a13, a14, a15, a16, a17, a18, a19, a20, a21, a22, a23, a24⟩ :=
    wgStart_spec s i now
  obtain ⟨al, re, sc, ho⟩ := wgCycle_out (st, s) i now
  have hsm : (wgStart s i now).out_smoothed = s.out_smoothed := by
    unfold wgStart wgUpdate
    rcases ha : i.airborne <;> rcases hs : s.smoothed_loc with _ | l <;> simp [ha, hs, hl]
  have htm : (targetOf st (wgStart s i now)).out_smoothed = s.out_smoothed ∧
      (targetOf st (wgStart s i now)).auto_land = true := by
    rw [← hsm, (targetOf_more st _).1, a17]
    refine ⟨?_, hl⟩
    cases st <;> first | rfl | exact absurd rfl hst
  constructor
  · rw [ho]
    dsimp only
    rw [getPathMsg_position, (getPathMsg_landing st _ htm.2).2.2.2, htm.1]
  · rintro rfl
    rw [wgCycle_eq]
    show (wgRun .LOITER (wgStart s i now)).2.auto_land = true
    unfold wgRun runLoiter
    dsimp only
    have e := (getPathMsg_frame .LOITER (targetOf .LOITER (wgStart s i now))).auto_land
    rw [htm.2] at e
    change ({ (if (getPathMsg .LOITER (targetOf .LOITER (wgStart s i now))).loiter = true then _ else _ :
      Transition × WgState).2 with state_changed := _ } : WgState).auto_land = true
    by_cases hlo : (getPathMsg .LOITER (targetOf .LOITER (wgStart s i now))).loiter = true
    · rw [if_pos hlo]; exact e
    · rw [if_neg hlo]; exact e

/-- **C37, decelerating (finding).** The position (NaN, NaN, z) with which an altitude change outside
offboard mode means to brake horizontally is never published: the position published by a cycle is
always a position without NaN entries. -/
theorem C37_position_has_no_nan (x : PlannerState × WgState) (i : WgIn) (now : ℝ) :
    (wgCycle x i now).2.out_position = (wgCycle x i now).2.out_smoothed.fin := by
  obtain ⟨al, re, sc, ho⟩ := wgCycle_out x i now
  rw [ho]; rfl

end Avoidance
