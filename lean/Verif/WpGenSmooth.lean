import Verif.WpGenSpeed
import Mathlib.Analysis.SpecificLimits.Basic
import Mathlib.Topology.Algebra.Order.LiminfLimsup

/-!
# C39, C66: the setpoint filter of the local waypoint generator
-/

namespace Avoidance
open Classical Filter Topology

/-- **C39, smoothing disabled.** The published position is the speed-adapted waypoint itself and the
yaw is the desired one. -/
theorem C39_disabled (st : PlannerState) (s : WgState) (hl : s.auto_land = false)
    (h : s.smoothing_speed_xy < 1 / 100 ∨ s.smoothing_speed_z < 1 / 100) :
    (getPathMsg st s).out_position = (getPathMsg st s).out_adapted.fin := by
  unfold getPathMsg
  dsimp only
  obtain ⟨ya, yb, hy⟩ := nextSmoothYaw_eq st (pathDt { s with out_adapted := s.out_goto })
    { s with out_adapted := s.out_goto }
  rw [hy]
  dsimp only
  rw [if_neg (by rw [hl]; simp)]
  have e := adaptSpeed_frame st (pathDt { s with out_adapted := s.out_goto })
      { s with out_adapted := s.out_goto, setpoint_yaw := ya, setpoint_yaw_velocity := yb }
  generalize adaptSpeed st (pathDt { s with out_adapted := s.out_goto })
      { s with out_adapted := s.out_goto, setpoint_yaw := ya, setpoint_yaw_velocity := yb } = b at e
  unfold smoothWaypoint
  rw [if_pos (by rw [e.sxy, e.sz]; exact h)]

/-- **C39, moves by the integrated velocity.** With smoothing enabled the published position moves by
`velocity × dt` per cycle, where `velocity` is the filter's own velocity. -/
theorem C39_integrates (dt : ℝ) (s : WgState) (loc : V3 ℝ) (hloc : s.smoothed_loc = some loc)
    (hxy : 1 / 100 ≤ s.smoothing_speed_xy) (hz : 1 / 100 ≤ s.smoothing_speed_z) :
    let o := smoothWaypoint dt s
    o.smoothed_loc = some (loc.plus (V3.smul dt o.smoothed_vel)) ∧
    o.out_smoothed = loc.plus (V3.smul dt o.smoothed_vel) := by
  unfold smoothWaypoint
  rw [if_neg (by push Not; exact ⟨hxy, hz⟩), hloc]
  exact ⟨rfl, rfl⟩

/-- One axis of the filter with target `t`, desired velocity `d`, constants `P` and `2√P`. -/
noncomputable def axisStep (P dt t d : ℝ) (xv : ℝ × ℝ) : ℝ × ℝ :=
  let v := xv.2 + dt * ((t - xv.1) * P + (d - xv.2) * (2 * Real.sqrt P))
  (xv.1 + dt * v, v)

/-- Desired velocity of the filter: zero within 10 cm of the goal, the vehicle's otherwise. -/
noncomputable def filterVelocity (s : WgState) : V3 ℝ :=
  if (s.out_adapted.minus s.goal).norm < 1 / 10 then ⟨0, 0, 0⟩ else s.velocity

theorem smoothWaypoint_axes (dt : ℝ) (s : WgState) (loc : V3 ℝ) (hloc : s.smoothed_loc = some loc)
    (hxy : 1 / 100 ≤ s.smoothing_speed_xy) (hz : 1 / 100 ≤ s.smoothing_speed_z) :
    let d := filterVelocity s
    let x := axisStep s.smoothing_speed_xy dt s.out_adapted.x d.x (loc.x, s.smoothed_vel.x)
    let y := axisStep s.smoothing_speed_xy dt s.out_adapted.y d.y (loc.y, s.smoothed_vel.y)
    let z := axisStep s.smoothing_speed_z dt s.out_adapted.z d.z (loc.z, s.smoothed_vel.z)
    smoothWaypoint dt s = { s with
      smoothed_loc := some ⟨x.1, y.1, z.1⟩, smoothed_vel := ⟨x.2, y.2, z.2⟩, out_smoothed := ⟨x.1, y.1, z.1⟩ } := by
  have hn : ¬ (s.smoothing_speed_xy < 1 / 100 ∨ s.smoothing_speed_z < 1 / 100) := by
    push Not; exact ⟨hxy, hz⟩
  unfold smoothWaypoint
  rw [if_neg hn, hloc]
  rfl

/-- **C39, a target that has been reached is kept,** and this is the only way to stand still: with
`dt > 0` and at rest near the goal, the filter state does not change exactly if it is at the target
with velocity zero. -/
theorem C39_fixed_point (dt : ℝ) (hdt : 0 < dt) (s : WgState) (loc : V3 ℝ) (hloc : s.smoothed_loc = some loc)
    (hxy : 1 / 100 ≤ s.smoothing_speed_xy) (hz : 1 / 100 ≤ s.smoothing_speed_z)
    (hd : (s.out_adapted.minus s.goal).norm < 1 / 10) :
    ((smoothWaypoint dt s).smoothed_loc = some loc ∧ (smoothWaypoint dt s).smoothed_vel = s.smoothed_vel) ↔
    (loc = s.out_adapted ∧ s.smoothed_vel = ⟨0, 0, 0⟩) := by
  have key : ∀ P t x v : ℝ, 1 / 100 ≤ P →
      ((axisStep P dt t 0 (x, v)).1 = x ∧ (axisStep P dt t 0 (x, v)).2 = v ↔ x = t ∧ v = 0) := by
    intro P t x v hP
    unfold axisStep
    dsimp only
    constructor
    · rintro ⟨h1, h2⟩
      rw [h2] at h1
      have hv : v = 0 := by
        rcases mul_eq_zero.1 (by linarith : dt * v = 0) with h | h
        · exact absurd h hdt.ne'
        · exact h
      rw [hv] at h2
      have : dt * ((t - x) * P) = 0 := by linear_combination h2
      refine ⟨?_, hv⟩
      rcases mul_eq_zero.1 this with h | h
      · exact absurd h hdt.ne'
      · rcases mul_eq_zero.1 h with h | h
        · linarith
        · linarith
    · rintro ⟨rfl, rfl⟩
      constructor <;> ring
  rw [smoothWaypoint_axes dt s loc hloc hxy hz]
  have hv0 : filterVelocity s = ⟨0, 0, 0⟩ := by unfold filterVelocity; rw [if_pos hd]
  rw [hv0]
  dsimp only
  have k1 := key s.smoothing_speed_xy s.out_adapted.x loc.x s.smoothed_vel.x hxy
  have k2 := key s.smoothing_speed_xy s.out_adapted.y loc.y s.smoothed_vel.y hxy
  have k3 := key s.smoothing_speed_z s.out_adapted.z loc.z s.smoothed_vel.z hz
  have hl : loc = ⟨loc.x, loc.y, loc.z⟩ := rfl
  have ha : s.out_adapted = ⟨s.out_adapted.x, s.out_adapted.y, s.out_adapted.z⟩ := rfl
  have hv : s.smoothed_vel = ⟨s.smoothed_vel.x, s.smoothed_vel.y, s.smoothed_vel.z⟩ := rfl
  rw [Option.some.injEq]
  rw [show (loc = s.out_adapted) = ((⟨loc.x, loc.y, loc.z⟩ : V3 ℝ) = ⟨s.out_adapted.x, s.out_adapted.y, s.out_adapted.z⟩) from rfl]
  constructor
  · rintro ⟨h1, h2⟩
    rw [hl] at h1; rw [hv] at h2
    simp only [V3.mk.injEq] at h1 h2
    obtain ⟨p1, q1⟩ := k1.1 ⟨h1.1, h2.1⟩
    obtain ⟨p2, q2⟩ := k2.1 ⟨h1.2.1, h2.2.1⟩
    obtain ⟨p3, q3⟩ := k3.1 ⟨h1.2.2, h2.2.2⟩
    rw [hv, p1, p2, p3, q1, q2, q3]
    exact ⟨rfl, rfl⟩
  · rintro ⟨h1, h2⟩
    rw [hv] at h2
    simp only [V3.mk.injEq] at h1 h2
    obtain ⟨p1, q1⟩ := k1.2 ⟨h1.1, h2.1⟩
    obtain ⟨p2, q2⟩ := k2.2 ⟨h1.2.1, h2.2.1⟩
    obtain ⟨p3, q3⟩ := k3.2 ⟨h1.2.2, h2.2.2⟩
    rw [p1, p2, p3, q1, q2, q3]
    exact ⟨rfl, rfl⟩

/-- **C39, yaw.** With smoothing the yaw setpoint is always a canonical angle, and differs from the old
one by `velocity × dt` up to full turns; at the desired yaw with no yaw velocity it stays.  Without
smoothing it is the desired yaw: the direction of the chosen waypoint, or the own heading if that is
within 10 cm horizontally, or during an altitude change the heading at its start. -/
theorem C39_yaw (st : PlannerState) (dt : ℝ) (s : WgState) :
    let o := nextSmoothYaw st dt s
    let facing := if (s.position.minus s.out_goto).normXY > 1 / 10 then nextYaw s.position s.out_goto
      else s.curr_yaw
    (1 / 100 < s.smoothing_speed_xy →
      (-Real.pi ≤ o.setpoint_yaw ∧ o.setpoint_yaw < Real.pi) ∧
      SameDirection (2 * Real.pi) (s.setpoint_yaw + o.setpoint_yaw_velocity * dt) o.setpoint_yaw ∧
      (st ≠ .ALTITUDE_CHANGE → s.setpoint_yaw = facing → -Real.pi ≤ facing → facing < Real.pi →
        s.setpoint_yaw_velocity = 0 → o.setpoint_yaw = s.setpoint_yaw ∧ o.setpoint_yaw_velocity = 0)) ∧
    (s.smoothing_speed_xy ≤ 1 / 100 →
      (st ≠ .ALTITUDE_CHANGE → o.setpoint_yaw = facing) ∧
      (∀ y, st = .ALTITUDE_CHANGE → s.yaw_reach_height = some y → o.setpoint_yaw = y)) := by
  have w0 : wrapPi 0 = 0 := by
    have hpi := Real.pi_pos
    exact ((C01_wrapPi_canonical 0).2 0 (by linarith) hpi ⟨0, by simp⟩).symm
  unfold nextSmoothYaw
  dsimp only
  constructor
  · intro h
    rw [if_neg (not_le.2 h)]
    refine ⟨⟨(C01_wrapPi_canonical _).1.1, (C01_wrapPi_canonical _).1.2.1⟩,
      (C01_wrapPi_canonical _).1.2.2, fun hst hy h1 h2 hv => ?_⟩
    rw [if_neg hst]
    dsimp only
    rw [← hy, sub_self, w0, hv]
    simp only [zero_mul, sub_self, add_zero]
    refine ⟨?_, trivial⟩
    exact ((C01_wrapPi_canonical _).2 _ (by rw [hy]; exact h1) (by rw [hy]; exact h2) ⟨0, by simp⟩).symm
  · intro h
    rw [if_pos h]
    refine ⟨fun hst => by rw [if_neg hst]; rfl, fun y hst hy => by rw [if_pos hst, hy]; rfl⟩

/-! ## C66: convergence of the filter -/

/-- Error (target minus position) and displacement per step along one axis. -/
noncomputable def errStep (w : ℝ) (eu : ℝ × ℝ) : ℝ × ℝ :=
  (eu.1 - (eu.2 * (1 - 2 * w) + w ^ 2 * eu.1), eu.2 * (1 - 2 * w) + w ^ 2 * eu.1)

theorem axisStep_err (P dt t x v : ℝ) (hP : 0 ≤ P) :
    (t - (axisStep P dt t 0 (x, v)).1, (axisStep P dt t 0 (x, v)).2 * dt) =
      errStep (Real.sqrt P * dt) (t - x, v * dt) := by
  have h := Real.sq_sqrt hP
  unfold axisStep errStep
  dsimp only
  rw [Prod.mk.injEq]
  constructor
  · linear_combination (-dt ^ 2 * (t - x)) * (-h)
  · linear_combination (dt ^ 2 * (t - x)) * (-h)

theorem axis_iterate (P dt t : ℝ) (hP : 0 ≤ P) (n : ℕ) (xv : ℝ × ℝ) :
    (t - ((axisStep P dt t 0)^[n] xv).1, ((axisStep P dt t 0)^[n] xv).2 * dt) =
      (errStep (Real.sqrt P * dt))^[n] (t - xv.1, xv.2 * dt) := by
  induction n with
  | zero => rfl
  | succ n ih =>
    rw [Function.iterate_succ_apply', Function.iterate_succ_apply', ← ih, ← axisStep_err P dt t _ _ hP]

/-- The two eigenvalues. -/
noncomputable def eigPlus (w : ℝ) : ℝ := (2 - 2 * w - w ^ 2 + w * Real.sqrt (w ^ 2 + 4 * w)) / 2
noncomputable def eigMinus (w : ℝ) : ℝ := (2 - 2 * w - w ^ 2 - w * Real.sqrt (w ^ 2 + 4 * w)) / 2

theorem eig_char (w : ℝ) (hw : 0 < w) :
    eigPlus w ^ 2 - (2 - 2 * w - w ^ 2) * eigPlus w + (1 - 2 * w) = 0 ∧
    eigMinus w ^ 2 - (2 - 2 * w - w ^ 2) * eigMinus w + (1 - 2 * w) = 0 := by
  have h : Real.sqrt (w ^ 2 + 4 * w) ^ 2 = w ^ 2 + 4 * w := Real.sq_sqrt (by positivity)
  unfold eigPlus eigMinus
  constructor
  · linear_combination (w ^ 2 / 4) * h
  · linear_combination (w ^ 2 / 4) * h

theorem errStep_form (w l : ℝ) (hl : l ^ 2 - (2 - 2 * w - w ^ 2) * l + (1 - 2 * w) = 0) (n : ℕ) (eu : ℝ × ℝ) :
    w ^ 2 * ((errStep w)^[n] eu).1 + (l - 1 + w ^ 2) * ((errStep w)^[n] eu).2 =
      l ^ n * (w ^ 2 * eu.1 + (l - 1 + w ^ 2) * eu.2) := by
  induction n with
  | zero => simp
  | succ n ih =>
    rw [Function.iterate_succ_apply', pow_succ]
    generalize (errStep w)^[n] eu = a at ih ⊢
    unfold errStep
    dsimp only
    linear_combination l * ih - a.2 * hl

theorem eig_bounds (w : ℝ) (hw : 0 < w) (hs : w < 2 * Real.sqrt 2 - 2) :
    |eigPlus w| < 1 ∧ |eigMinus w| < 1 ∧ eigMinus w < eigPlus w := by
  have h2 : Real.sqrt 2 ^ 2 = 2 := Real.sq_sqrt (by norm_num)
  have hr := Real.sqrt_pos.2 (show (0:ℝ) < w ^ 2 + 4 * w by positivity)
  have hrs : Real.sqrt (w ^ 2 + 4 * w) ^ 2 = w ^ 2 + 4 * w := Real.sq_sqrt (by positivity)
  generalize hrr : Real.sqrt (w ^ 2 + 4 * w) = r at hr hrs
  have hr2 : Real.sqrt 2 < 3 / 2 := by
    rw [Real.sqrt_lt' (by norm_num)]; norm_num
  have hw1 : w < 1 := by linarith
  have hq : 0 < 4 - 4 * w - w ^ 2 := by
    nlinarith [Real.sqrt_nonneg 2]
  have hrlt : r < w + 2 := by nlinarith
  have hrgt : w < r := by nlinarith
  -- w r < 4 - 2 w - w²
  have hkey : w * r < 4 - 2 * w - w ^ 2 := by
    have hp : 0 < 4 - 2 * w - w ^ 2 := by nlinarith
    have : (w * r) ^ 2 < (4 - 2 * w - w ^ 2) ^ 2 := by
      have e : (4 - 2 * w - w ^ 2) ^ 2 - (w * r) ^ 2 = 4 * (4 - 4 * w - w ^ 2) := by
        linear_combination (-w ^ 2) * hrs
      nlinarith
    exact lt_of_pow_lt_pow_left₀ 2 hp.le this
  refine ⟨?_, ?_, ?_⟩
  · unfold eigPlus; rw [hrr, abs_lt]; constructor <;> nlinarith
  · unfold eigMinus; rw [hrr, abs_lt]; constructor <;> nlinarith
  · unfold eigPlus eigMinus; rw [hrr]; nlinarith

theorem errStep_tendsto (w : ℝ) (hw : 0 < w) (hs : w < 2 * Real.sqrt 2 - 2) (eu : ℝ × ℝ) :
    Tendsto (fun n => ((errStep w)^[n] eu).1) atTop (𝓝 0) := by
  obtain ⟨b1, b2, b3⟩ := eig_bounds w hw hs
  obtain ⟨c1, c2⟩ := eig_char w hw
  have t1 : Tendsto (fun n => eigPlus w ^ n * (w ^ 2 * eu.1 + (eigPlus w - 1 + w ^ 2) * eu.2)) atTop (𝓝 0) := by
    simpa using (tendsto_pow_atTop_nhds_zero_of_abs_lt_one b1).mul_const _
  have t2 : Tendsto (fun n => eigMinus w ^ n * (w ^ 2 * eu.1 + (eigMinus w - 1 + w ^ 2) * eu.2)) atTop (𝓝 0) := by
    simpa using (tendsto_pow_atTop_nhds_zero_of_abs_lt_one b2).mul_const _
  have hne : eigPlus w - eigMinus w ≠ 0 := by linarith
  have hw2 : w ^ 2 ≠ 0 := by positivity
  have e : (fun n => ((errStep w)^[n] eu).1) = fun n =>
      ((eigPlus w - 1 + w ^ 2) * (eigMinus w ^ n * (w ^ 2 * eu.1 + (eigMinus w - 1 + w ^ 2) * eu.2)) -
       (eigMinus w - 1 + w ^ 2) * (eigPlus w ^ n * (w ^ 2 * eu.1 + (eigPlus w - 1 + w ^ 2) * eu.2))) /
      ((eigPlus w - eigMinus w) * w ^ 2) := by
    funext n
    rw [← errStep_form w _ c1 n eu, ← errStep_form w _ c2 n eu]
    rw [eq_div_iff (mul_ne_zero hne hw2)]
    ring
  rw [e]
  have := ((t2.const_mul (eigPlus w - 1 + w ^ 2)).sub (t1.const_mul (eigMinus w - 1 + w ^ 2))).div_const
    ((eigPlus w - eigMinus w) * w ^ 2)
  simpa using this

/-- Repeating the filter step: the state after `n` steps, axis by axis. -/
theorem smoothWaypoint_iterate (dt : ℝ) (s : WgState) (loc : V3 ℝ) (hloc : s.smoothed_loc = some loc)
    (hxy : 1 / 100 ≤ s.smoothing_speed_xy) (hz : 1 / 100 ≤ s.smoothing_speed_z)
    (hd : (s.out_adapted.minus s.goal).norm < 1 / 10) (n : ℕ) :
    let x := (axisStep s.smoothing_speed_xy dt s.out_adapted.x 0)^[n] (loc.x, s.smoothed_vel.x)
    let y := (axisStep s.smoothing_speed_xy dt s.out_adapted.y 0)^[n] (loc.y, s.smoothed_vel.y)
    let z := (axisStep s.smoothing_speed_z dt s.out_adapted.z 0)^[n] (loc.z, s.smoothed_vel.z)
    ∃ q, (smoothWaypoint dt)^[n] s =
      { s with smoothed_loc := some ⟨x.1, y.1, z.1⟩, smoothed_vel := ⟨x.2, y.2, z.2⟩, out_smoothed := q } ∧
      (0 < n → q = ⟨x.1, y.1, z.1⟩) := by
  dsimp only
  induction n with
  | zero =>
    refine ⟨s.out_smoothed, ?_, fun h => absurd h (lt_irrefl 0)⟩
    show s = _
    cases s
    simp only [Function.iterate_zero, id_eq, WgState.mk.injEq, true_and, and_true] at hloc ⊢
    exact hloc
  | succ n ih =>
    obtain ⟨q, hq, -⟩ := ih
    have hv0 : ∀ a : WgState, a.out_adapted = s.out_adapted → a.goal = s.goal → filterVelocity a = ⟨0, 0, 0⟩ := by
      intro a h1 h2; unfold filterVelocity; rw [h1, h2, if_pos hd]
    have ax := smoothWaypoint_axes dt ((smoothWaypoint dt)^[n] s) _ (by rw [hq])
      (by rw [hq]; exact hxy) (by rw [hq]; exact hz)
    rw [hv0 _ (by rw [hq]) (by rw [hq])] at ax
    simp only [Function.iterate_succ_apply']
    rw [ax, hq]
    exact ⟨_, rfl, fun _ => rfl⟩

/-- **C66, convergence.** Near the goal and with a constant target, the published position converges
to the target on every axis if `√P·dt < 2√2 - 2` for the smoothing constants, whatever the filter's
state. -/
theorem C66_smoothing_converges (dt : ℝ) (hdt : 0 < dt) (s : WgState) (loc : V3 ℝ)
    (hloc : s.smoothed_loc = some loc)
    (hxy : 1 / 100 ≤ s.smoothing_speed_xy) (hz : 1 / 100 ≤ s.smoothing_speed_z)
    (hd : (s.out_adapted.minus s.goal).norm < 1 / 10)
    (wxy : Real.sqrt s.smoothing_speed_xy * dt < 2 * Real.sqrt 2 - 2)
    (wz : Real.sqrt s.smoothing_speed_z * dt < 2 * Real.sqrt 2 - 2) :
    Tendsto (fun n => ((smoothWaypoint dt)^[n] s).out_smoothed.x) atTop (𝓝 s.out_adapted.x) ∧
    Tendsto (fun n => ((smoothWaypoint dt)^[n] s).out_smoothed.y) atTop (𝓝 s.out_adapted.y) ∧
    Tendsto (fun n => ((smoothWaypoint dt)^[n] s).out_smoothed.z) atTop (𝓝 s.out_adapted.z) := by
  have axis : ∀ P t : ℝ, 1 / 100 ≤ P → Real.sqrt P * dt < 2 * Real.sqrt 2 - 2 → ∀ xv,
      Tendsto (fun n => ((axisStep P dt t 0)^[n] xv).1) atTop (𝓝 t) := by
    intro P t hP hw xv
    have hP0 : 0 < P := by linarith
    have := errStep_tendsto (Real.sqrt P * dt) (mul_pos (Real.sqrt_pos.2 hP0) hdt) hw (t - xv.1, xv.2 * dt)
    have e : (fun n => ((errStep (Real.sqrt P * dt))^[n] (t - xv.1, xv.2 * dt)).1) =
        fun n => t - ((axisStep P dt t 0)^[n] xv).1 := by
      funext n; rw [← axis_iterate P dt t hP0.le n xv]
    rw [e] at this
    have h2 := this.const_sub t
    simpa using h2
  have ev : ∀ᶠ n in atTop, ((smoothWaypoint dt)^[n] s).out_smoothed =
      ⟨((axisStep s.smoothing_speed_xy dt s.out_adapted.x 0)^[n] (loc.x, s.smoothed_vel.x)).1,
       ((axisStep s.smoothing_speed_xy dt s.out_adapted.y 0)^[n] (loc.y, s.smoothed_vel.y)).1,
       ((axisStep s.smoothing_speed_z dt s.out_adapted.z 0)^[n] (loc.z, s.smoothed_vel.z)).1⟩ := by
    filter_upwards [eventually_gt_atTop 0] with n hn
    obtain ⟨q, hq, hq2⟩ := smoothWaypoint_iterate dt s loc hloc hxy hz hd n
    rw [hq]; exact hq2 hn
  refine ⟨?_, ?_, ?_⟩
  · exact (axis _ _ hxy wxy _).congr' (by filter_upwards [ev] with n hn; rw [hn])
  · exact (axis _ _ hxy wxy _).congr' (by filter_upwards [ev] with n hn; rw [hn])
  · exact (axis _ _ hz wz _).congr' (by filter_upwards [ev] with n hn; rw [hn])

theorem eigMinus_unstable (w : ℝ) (hs : 2 * Real.sqrt 2 - 2 < w) : eigMinus w < -1 := by
  have h2 : Real.sqrt 2 ^ 2 = 2 := Real.sq_sqrt (by norm_num)
  have h1 : 1 < Real.sqrt 2 := by
    rw [Real.lt_sqrt (by norm_num)]; norm_num
  have hw : 0 < w := by linarith
  have hr := Real.sqrt_pos.2 (show (0:ℝ) < w ^ 2 + 4 * w by positivity)
  have hrs : Real.sqrt (w ^ 2 + 4 * w) ^ 2 = w ^ 2 + 4 * w := Real.sq_sqrt (by positivity)
  unfold eigMinus
  generalize Real.sqrt (w ^ 2 + 4 * w) = r at hr hrs
  have hq : 4 - 4 * w - w ^ 2 < 0 := by nlinarith
  by_cases hp : 4 - 2 * w - w ^ 2 < 0
  · nlinarith
  · push Not at hp
    have : 4 - 2 * w - w ^ 2 < w * r := by
      have e : (4 - 2 * w - w ^ 2) ^ 2 - (w * r) ^ 2 = 4 * (4 - 4 * w - w ^ 2) := by
        linear_combination (-w ^ 2) * hrs
      exact lt_of_pow_lt_pow_left₀ 2 (by positivity) (by nlinarith)
    linarith

/-- **C66, instability (finding).** With `√P·dt > 2√2 - 2` (at the default `P = 10`: cycles of more
than about 0.26 s) the filter diverges: starting at rest away from the target, the published position
gets farther away from the target than any bound. -/
theorem C66_smoothing_diverges (dt : ℝ) (s : WgState) (loc : V3 ℝ)
    (hloc : s.smoothed_loc = some loc) (hxy : 1 / 100 ≤ s.smoothing_speed_xy) (hz : 1 / 100 ≤ s.smoothing_speed_z)
    (hd : (s.out_adapted.minus s.goal).norm < 1 / 10)
    (wxy : 2 * Real.sqrt 2 - 2 < Real.sqrt s.smoothing_speed_xy * dt)
    (hv : s.smoothed_vel.x = 0) (hne : loc.x ≠ s.out_adapted.x) (M : ℝ) :
    ∃ n, M < |((smoothWaypoint dt)^[n] s).out_smoothed.x - s.out_adapted.x| := by
  have hP0 : 0 < s.smoothing_speed_xy := by linarith
  set w := Real.sqrt s.smoothing_speed_xy * dt with hwdef
  have h1 : 1 < Real.sqrt 2 := by rw [Real.lt_sqrt (by norm_num)]; norm_num
  have hw : 0 < w := by linarith
  have hl := eigMinus_unstable w wxy
  obtain ⟨-, hc⟩ := eig_char w hw
  by_contra hcon
  push Not at hcon
  set E : ℕ → ℝ × ℝ := fun n => (errStep w)^[n] (s.out_adapted.x - loc.x, 0) with hE
  have hb : ∀ n, 0 < n → |(E n).1| ≤ M := by
    intro n hn
    have := hcon n
    obtain ⟨q, hq, hq2⟩ := smoothWaypoint_iterate dt s loc hloc hxy hz hd n
    rw [hq] at this
    dsimp only at this
    rw [hq2 hn, abs_sub_comm] at this
    have e := axis_iterate s.smoothing_speed_xy dt s.out_adapted.x hP0.le n (loc.x, s.smoothed_vel.x)
    rw [hv] at e this
    simp only [zero_mul] at e
    rw [hE]
    dsimp only
    rw [← e]
    exact this
  have hu : ∀ n, (E (n + 1)).2 = (E n).1 - (E (n + 1)).1 := by
    intro n
    rw [hE]; dsimp only
    rw [Function.iterate_succ_apply']
    unfold errStep
    dsimp only; ring
  have hform : ∀ n, w ^ 2 * (E n).1 + (eigMinus w - 1 + w ^ 2) * (E n).2 =
      eigMinus w ^ n * (w ^ 2 * (s.out_adapted.x - loc.x)) := by
    intro n
    have := errStep_form w _ hc n (s.out_adapted.x - loc.x, 0)
    rw [hE]; dsimp only at this ⊢
    rw [this]; ring
  set K := |w ^ 2| * M + |eigMinus w - 1 + w ^ 2| * (2 * M) with hK
  have hK2 : ∀ n, |eigMinus w| ^ (n + 2) * |w ^ 2 * (s.out_adapted.x - loc.x)| ≤ K := by
    intro n
    have h3 := congrArg abs (hform (n + 2))
    rw [abs_mul, abs_pow] at h3
    rw [← h3]
    refine (abs_add_le _ _).trans ?_
    rw [abs_mul, abs_mul, hK]
    refine add_le_add (mul_le_mul_of_nonneg_left (hb _ (by omega)) (abs_nonneg _))
      (mul_le_mul_of_nonneg_left ?_ (abs_nonneg _))
    rw [hu (n + 1)]
    have a1 := abs_le.1 (hb (n + 1) (by omega))
    have a2 := abs_le.1 (hb (n + 1 + 1) (by omega))
    rw [abs_le]; constructor <;> linarith
  have hc0 : 0 < |w ^ 2 * (s.out_adapted.x - loc.x)| :=
    abs_pos.2 (mul_ne_zero (by positivity) (sub_ne_zero.2 (Ne.symm hne)))
  have habs : 1 < |eigMinus w| := by rw [lt_abs]; right; linarith
  obtain ⟨n, hn⟩ := pow_unbounded_of_one_lt (K / |w ^ 2 * (s.out_adapted.x - loc.x)|) habs
  rw [div_lt_iff₀ hc0] at hn
  have : |eigMinus w| ^ n ≤ |eigMinus w| ^ (n + 2) := pow_le_pow_right₀ habs.le (by omega)
  have := hK2 n
  nlinarith

/-- The limit for the default constants: at `P = 10` a cycle time of 0.26 s is still stable and 0.27 s
is not. -/
example : Real.sqrt 10 * 0.26 < 2 * Real.sqrt 2 - 2 ∧ 2 * Real.sqrt 2 - 2 < Real.sqrt 10 * 0.27 := by
  have a1 : Real.sqrt 10 < 3.1623 := by rw [Real.sqrt_lt' (by norm_num)]; norm_num
  have a2 : 3.1622 < Real.sqrt 10 := by rw [Real.lt_sqrt (by norm_num)]; norm_num
  have b1 : 1.4142 < Real.sqrt 2 := by rw [Real.lt_sqrt (by norm_num)]; norm_num
  have b2 : Real.sqrt 2 < 1.4143 := by rw [Real.sqrt_lt' (by norm_num)]; norm_num
  constructor <;> linarith

/-! ## The theorems of this file and of `WpGenProps`/`WpGenSpeed` are not vacuous -/

/-- The members after construction (waypoint_generator.h:33-80) with the vehicle described by `i`; the
`out_` members are uninitialised in the code and arbitrary here. -/
noncomputable def wgInit (position goal : V3 ℝ) : WgState where
  planner := ⟨[], 0, none⟩
  smoothing_speed_xy := 10
  smoothing_speed_z := 3
  fovs := []
  position := position
  velocity := ⟨0, 0, 0⟩
  goal := goal
  curr_yaw := 0
  curr_pitch := 0
  nav := .none
  is_land := false
  is_takeoff := false
  desired_vel := V3.nan
  loiter := false
  airborne := false
  last_time := 99999
  current_time := 99999
  smoothed_loc := none
  smoothed_vel := ⟨0, 0, 0⟩
  hover_position := none
  change_altitude_pos := none
  yaw_reach_height := none
  reach_altitude_offboard := false
  auto_land := false
  state_changed := false
  setpoint_yaw := 0
  setpoint_yaw_velocity := 0
  heading_at_goal := none
  speed := 0
  out_goto := position
  out_adapted := position
  out_smoothed := position
  out_position := V3.nan
  out_linear_velocity := V3.nan

/-- An airborne vehicle at the origin, goal 10 m ahead and 3 m up, offboard. -/
noncomputable def wgExampleInput : WgIn :=
  ⟨⟨0, 0, 0⟩, ⟨0, 0, 0⟩, ⟨10, 0, 3⟩, 0, 0, .offboard, false, false, V3.nan, false, true⟩

/-- From the initial state the machine goes LOITER → TRY_PATH → ALTITUDE_CHANGE in this situation, and
the speed bound applies to the whole run. -/
example :
    let x0 : PlannerState × WgState := (.LOITER, wgInit ⟨0, 0, 0⟩ ⟨10, 0, 3⟩)
    let x1 := wgCycle x0 wgExampleInput 100000
    let x2 := wgCycle x1 wgExampleInput 100001
    x1.1 = .TRY_PATH ∧ x2.1 = .ALTITUDE_CHANGE ∧ 0 ≤ x2.2.speed ∧ x2.2.speed ≤ 5 := by
  dsimp only
  have h1 : (wgCycle (.LOITER, wgInit ⟨0, 0, 0⟩ ⟨10, 0, 3⟩) wgExampleInput 100000).1 = .TRY_PATH := by
    rw [C37_next_state]; rfl
  have hr : (wgCycle (.LOITER, wgInit ⟨0, 0, 0⟩ ⟨10, 0, 3⟩) wgExampleInput 100000).2.reach_altitude_offboard = false :=
    (C37_offboard_altitude_first _ wgExampleInput 100000 rfl rfl rfl (by norm_num [wgExampleInput])).2
  refine ⟨h1, ?_, ?_⟩
  · rcases (C37_offboard_altitude_first (wgCycle (.LOITER, wgInit ⟨0, 0, 0⟩ ⟨10, 0, 3⟩) wgExampleInput 100000)
      wgExampleInput 100001 rfl rfl (by unfold reachedBefore; rw [hr]; simp) (by norm_num [wgExampleInput])).1 with h | ⟨-, h, -⟩
    · exact h
    · exact absurd h1 h
  · have := C38_speed_bound 5 (by norm_num) (.LOITER, wgInit ⟨0, 0, 0⟩ ⟨10, 0, 3⟩) (le_refl (0:ℝ))
      (show (0:ℝ) ≤ 5 by norm_num)
      [(setInputs ⟨[], 0, none⟩ 10 3 [], wgExampleInput, 100000), (setInputs ⟨[], 0, none⟩ 10 3 [], wgExampleInput, 100001)]
      (by
        intro e he
        simp only [List.mem_cons, List.not_mem_nil, or_false] at he
        rcases he with rfl | rfl <;>
        exact ⟨_, _, _, _, rfl, fun f hf => by simp at hf, fun c hc => by simp at hc⟩)
    have e1 : setInputs ⟨[], 0, none⟩ 10 3 [] (wgInit ⟨0, 0, 0⟩ ⟨10, 0, 3⟩) = wgInit ⟨0, 0, 0⟩ ⟨10, 0, 3⟩ := rfl
    unfold wgRunAll wgRunAll wgRunAll at this
    dsimp only at this
    rw [e1] at this
    have e2 : setInputs ⟨[], 0, none⟩ 10 3 [] (wgCycle (.LOITER, wgInit ⟨0, 0, 0⟩ ⟨10, 0, 3⟩) wgExampleInput 100000).2 =
        (wgCycle (.LOITER, wgInit ⟨0, 0, 0⟩ ⟨10, 0, 3⟩) wgExampleInput 100000).2 := by
      obtain ⟨al, re, sc, ho⟩ := wgCycle_out (.LOITER, wgInit ⟨0, 0, 0⟩ ⟨10, 0, 3⟩) wgExampleInput 100000
      have f := getPathMsg_frame .LOITER (targetOf .LOITER (wgStart (wgInit ⟨0, 0, 0⟩ ⟨10, 0, 3⟩) wgExampleInput 100000))
      obtain ⟨a1, a2, a3, a4, a5, a6, a7, a8, a9, a10, a11, a12, a13, a14, a15, a16, a17, a18, a19, a20, a21, a22, a23, a24⟩ :=
        wgStart_spec (wgInit ⟨0, 0, 0⟩ ⟨10, 0, 3⟩) wgExampleInput 100000
      rw [ho]
      have g1 := f.planner.trans a1
      have g2 := f.sxy.trans a21
      have g3 := f.sz.trans a22
      have g4 := f.fovs.trans a23
      generalize getPathMsg .LOITER (targetOf .LOITER (wgStart (wgInit ⟨0, 0, 0⟩ ⟨10, 0, 3⟩) wgExampleInput 100000)) = q at g1 g2 g3 g4
      cases q
      simp only at g1 g2 g3 g4
      subst g1 g2 g3 g4
      rfl
    rw [e2] at this
    exact this

end Avoidance
