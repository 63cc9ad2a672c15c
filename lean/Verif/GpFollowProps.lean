import Verif.GpFollow
import Verif.GpBezierProps
import Verif.GpStateProps
import Verif.GpSimplifyProps

/-!
# C77-C80: following the planned path
-/

namespace Avoidance
namespace Global

/-! ## C77: the position sent -/

theorem norm_eq_zero_iff (v : V3 ℝ) : v.norm = 0 ↔ v = ⟨0, 0, 0⟩ := by
  constructor
  · intro h
    have h1 := V3.norm_sq v
    rw [h, mul_zero] at h1
    unfold V3.dot at h1
    have a1 := mul_self_nonneg v.x
    have a2 := mul_self_nonneg v.y
    have a3 := mul_self_nonneg v.z
    ext
    · exact mul_self_eq_zero.mp (by linarith)
    · exact mul_self_eq_zero.mp (by linarith)
    · exact mul_self_eq_zero.mp (by linarith)
  · intro h
    rw [h]
    unfold V3.norm V3.dot
    simp

/-- **C77**: within one metre of the current goal the goal itself is sent; further away a position at exactly `speed` from the vehicle, in the
direction of the goal: the three points are on one line. -/
theorem C77_setpoint (goal here : V3 ℝ) (v : ℝ) (hv : 0 ≤ v) (hne : goal ≠ here) :
    ∃ p, setpoint goal here v = some p ∧
      (dist3 here goal < 1 → p = goal) ∧
      (1 ≤ dist3 here goal → dist3 here p = v ∧ ∃ r, 0 ≤ r ∧ p = here.plus (V3.smul r (goal.minus here))) := by
  have hn : (goal.minus here).norm ≠ 0 := by
    rw [Ne, norm_eq_zero_iff]
    intro h
    apply hne
    have h1 := congrArg V3.x h
    have h2 := congrArg V3.y h
    have h3 := congrArg V3.z h
    unfold V3.minus at h1 h2 h3
    dsimp only at h1 h2 h3
    ext <;> linarith
  have hpos : 0 < (goal.minus here).norm := lt_of_le_of_ne (V3.norm_nonneg _) (Ne.symm hn)
  unfold setpoint
  dsimp only
  rw [if_neg hn]
  refine ⟨_, rfl, ?_, ?_⟩
  · intro h
    rw [if_pos (show (goal.minus here).norm < 1 from h)]
    unfold V3.plus V3.smul
    ext <;> dsimp only <;> field_simp <;> unfold V3.minus <;> dsimp only <;> ring
  · intro h
    rw [if_neg (not_lt.mpr (show 1 ≤ (goal.minus here).norm from h))]
    constructor
    · have e : (here.plus (V3.smul v (V3.smul (1 / (goal.minus here).norm) (goal.minus here)))).minus here =
          V3.smul (v / (goal.minus here).norm) (goal.minus here) := by
        unfold V3.plus V3.smul V3.minus
        ext <;> dsimp only <;> ring
      unfold dist3
      rw [e, V3.norm_smul, abs_of_nonneg (by positivity)]
      field_simp
    · refine ⟨v / (goal.minus here).norm, by positivity, ?_⟩
      unfold V3.plus V3.smul
      ext <;> dsimp only <;> ring

/-- **C77**: with a speed of at most one metre (the default) the position sent lies on the segment from the vehicle to the goal. -/
theorem C77_on_segment (goal here : V3 ℝ) (v : ℝ) (hv : 0 ≤ v) (hv1 : v ≤ 1) (hne : goal ≠ here) :
    ∃ r, 0 ≤ r ∧ r ≤ 1 ∧ setpoint goal here v = some (lerp3 here goal r) := by
  obtain ⟨p, hp, h1, h2⟩ := C77_setpoint goal here v hv hne
  rcases lt_or_ge (dist3 here goal) 1 with h | h
  · refine ⟨1, zero_le_one, le_refl _, ?_⟩
    rw [hp, h1 h]
    unfold lerp3 lerp
    congr 1
    ext <;> dsimp only <;> ring
  · obtain ⟨h3, r, hr, h4⟩ := h2 h
    refine ⟨r, hr, ?_, ?_⟩
    · have e : p.minus here = V3.smul r (goal.minus here) := by
        rw [h4]
        unfold V3.plus V3.smul V3.minus
        ext <;> dsimp only <;> ring
      unfold dist3 at h3 h
      rw [e, V3.norm_smul, abs_of_nonneg hr] at h3
      by_contra hc
      rw [not_le] at hc
      nlinarith
    · rw [hp, h4]
      unfold V3.plus V3.smul lerp3 lerp V3.minus
      congr 1
      ext <;> dsimp only <;> ring

/-- **C77** (violated): with a higher speed the position sent can lie behind the goal: for every goal at a distance of at least one metre and
less than the speed, by the difference of the two. -/
theorem C77_overshoot_violated (goal here : V3 ℝ) (v : ℝ) (h1 : 1 ≤ dist3 here goal) (h2 : dist3 here goal < v) :
    ∃ p, setpoint goal here v = some p ∧ dist3 goal p = v - dist3 here goal ∧ 0 < dist3 goal p := by
  have hne : goal ≠ here := by
    intro h
    rw [h] at h1
    unfold dist3 V3.norm V3.dot V3.minus at h1
    norm_num at h1
  obtain ⟨p, hp, _, h3⟩ := C77_setpoint goal here v (by linarith) hne
  obtain ⟨h4, r, hr, h5⟩ := h3 h1
  have e1 : p.minus here = V3.smul r (goal.minus here) := by
    rw [h5]; unfold V3.plus V3.smul V3.minus; ext <;> dsimp only <;> ring
  have e2 : p.minus goal = V3.smul (r - 1) (goal.minus here) := by
    rw [h5]; unfold V3.plus V3.smul V3.minus; ext <;> dsimp only <;> ring
  unfold dist3 at h4 h1 h2 ⊢
  rw [e1, V3.norm_smul, abs_of_nonneg hr] at h4
  refine ⟨p, hp, ?_, ?_⟩
  · have hr1 : 0 ≤ r - 1 := by
      by_contra hc
      rw [not_le] at hc
      nlinarith
    rw [e2, V3.norm_smul, abs_of_nonneg hr1]
    linarith
  · have hr1 : 0 < r - 1 := by
      by_contra hc
      rw [not_lt] at hc
      nlinarith
    rw [e2, V3.norm_smul, abs_of_pos hr1]
    have : 0 < (goal.minus here).norm := by linarith
    positivity

/-- **C77** (violated): exactly at the goal the position sent is not a number. -/
theorem C77_at_goal_violated (p : V3 ℝ) (v : ℝ) : setpoint p p v = none := by
  unfold setpoint
  rw [if_pos]
  rw [norm_eq_zero_iff]
  unfold V3.minus
  ext <;> dsimp only <;> ring

/-- **C77**: the speed is between the default and the maximum speed, it is the default at or above the risk threshold, and it never grows with
the risk. -/
theorem C77_speed (C : SpeedCfg) (h : C.defaultSpeed ≤ C.maxSpeed) (ht : C.threshold ≤ 1) (r : ℝ) (hr : 0 ≤ r) :
    ∃ v, commandedSpeed C r = some v ∧ C.defaultSpeed ≤ v ∧ v ≤ C.maxSpeed ∧ (C.threshold ≤ Real.sqrt r → v = C.defaultSpeed) ∧
      ∀ r' v', r ≤ r' → commandedSpeed C r' = some v' → v' ≤ v := by
  unfold commandedSpeed
  by_cases hf : C.speedupHeuristics = true
  · simp only [if_pos hf]
    rw [if_neg (not_lt.mpr hr)]
    by_cases hc : C.threshold ≤ Real.sqrt r
    · rw [if_pos hc]
      refine ⟨_, rfl, le_refl _, h, fun _ => rfl, ?_⟩
      intro r' v' hrr hv'
      rw [if_neg (not_lt.mpr (hr.trans hrr)), if_pos (hc.trans (Real.sqrt_le_sqrt hrr))] at hv'
      rw [← Option.some_inj.mp hv']
    · rw [if_neg hc]
      have hs : Real.sqrt r < 1 := (not_le.mp hc).trans_le ht
      have hs0 := Real.sqrt_nonneg r
      refine ⟨_, rfl, by nlinarith, by nlinarith, fun h => absurd h hc, ?_⟩
      intro r' v' hrr hv'
      rw [if_neg (not_lt.mpr (hr.trans hrr))] at hv'
      by_cases hc' : C.threshold ≤ Real.sqrt r'
      · rw [if_pos hc'] at hv'
        rw [← Option.some_inj.mp hv']
        nlinarith
      · rw [if_neg hc'] at hv'
        rw [← Option.some_inj.mp hv']
        have := Real.sqrt_le_sqrt hrr
        nlinarith
  · simp only [if_neg hf]
    refine ⟨_, rfl, le_refl _, h, fun _ => rfl, ?_⟩
    intro r' v' _ hv'
    rw [← Option.some_inj.mp hv']

/-- **C77** (violated): switching risk based speed-up off has no effect; with the search's speed-up heuristics on, the vehicle still flies faster
than the default speed through every cell of low risk. -/
theorem C77_switch_violated (C : SpeedCfg) (h : C.defaultSpeed < C.maxSpeed) (ht : C.threshold ≤ 1) (r : ℝ) (hr : 0 ≤ r) (hlow : Real.sqrt r < C.threshold) :
    (∀ b, commandedSpeed { C with riskBasedSpeedup := b } r = commandedSpeed C r) ∧
    ∃ v, commandedSpeed { C with riskBasedSpeedup := false, speedupHeuristics := true } r = some v ∧ C.defaultSpeed < v := by
  refine ⟨fun _ => rfl, _, by unfold commandedSpeed; rw [if_pos rfl, if_neg (not_lt.mpr hr), if_neg (not_le.mpr hlow)], ?_⟩
  dsimp only
  nlinarith

/-- **C77**: the pose sent has the orientation of the current goal, and its position is the one above. -/
theorem C77_published (C : SpeedCfg) (st : FollowSt) (risk : ℝ) (hd : 0 ≤ C.defaultSpeed) (h : C.defaultSpeed ≤ C.maxSpeed) (ht : C.threshold ≤ 1)
    (hr : 0 ≤ risk) (hne : st.goal.position ≠ st.here.position) :
    ∃ st' q, publishSetpoint C st risk = some (st', q) ∧ q.orientation = st.goal.orientation ∧ setpoint st.goal.position st.here.position st'.speed = some q.position ∧
      st'.goal = st.goal ∧ st'.path = st.path ∧ C.defaultSpeed ≤ st'.speed ∧ st'.speed ≤ C.maxSpeed ∧
      dist3 st.here.position q.position ≤ max 1 C.maxSpeed := by
  obtain ⟨v, h1, h2, h3, _⟩ := C77_speed C h ht risk hr
  obtain ⟨p, h4, h5, h6⟩ := C77_setpoint st.goal.position st.here.position v (hd.trans h2) hne
  unfold publishSetpoint
  rw [h1]
  dsimp only
  rw [h4]
  refine ⟨_, _, rfl, rfl, h4, rfl, rfl, h2, h3, ?_⟩
  dsimp only
  rcases lt_or_ge (dist3 st.here.position st.goal.position) 1 with h | h
  · rw [h5 h]
    exact h.le.trans (le_max_left _ _)
  · rw [(h6 h).1]
    exact h3.trans (le_max_right _ _)

/-- non-vacuity: 10 m to the goal, risk 0.01 -/
example : ∃ st' q, publishSetpoint ⟨1 / 2, 1, 3, true, true⟩ ⟨⟨⟨0, 0, 3⟩, 0⟩, ⟨⟨10, 0, 3⟩, 0⟩, [], ⟨⟨0, 0, 3⟩, 0⟩, 1⟩ (1 / 100) = some (st', q) ∧ q.orientation = 0 := by
  obtain ⟨st', q, h, h2, _⟩ := C77_published ⟨1 / 2, 1, 3, true, true⟩ ⟨⟨⟨0, 0, 3⟩, 0⟩, ⟨⟨10, 0, 3⟩, 0⟩, [], ⟨⟨0, 0, 3⟩, 0⟩, 1⟩ (1 / 100)
    (by norm_num) (by norm_num) (by norm_num) (by norm_num) (by intro h; have := congrArg V3.x h; norm_num at this)
  exact ⟨st', q, h, h2⟩

/-! ## C78: the goals along the path -/

/-- What happens to the follower between two plans. -/
inductive FollowEvent
  | pose (p : GPose ℝ ℝ)
  | command (risk : ℝ)

/-- one event; a command that computes NaN changes nothing that following uses except the speed, which then keeps its value here -/
noncomputable def followStep (C : SpeedCfg) (st : FollowSt) : FollowEvent → FollowSt
  | .pose p => followPosition st p
  | .command risk => match publishSetpoint C st risk with
    | none => st
    | some r => r.1

theorem followPosition_cases (st : FollowSt) (p : GPose ℝ ℝ) :
    (followPosition st p).goal = st.goal ∧ (followPosition st p).path = st.path ∧ (followPosition st p).lastGoal = st.lastGoal ∨
    (dist3 st.goal.position p.position < st.speed ∧ facing st.goal.orientation p.orientation ∧
      st.path = (followPosition st p).goal :: (followPosition st p).path ∧ (followPosition st p).lastGoal = st.goal) := by
  unfold followPosition
  dsimp only
  cases hp : st.path with
  | nil => exact Or.inl ⟨rfl, rfl, rfl⟩
  | cons a l =>
      dsimp only
      split
      · rename_i h
        exact Or.inr ⟨h.1, h.2, rfl, rfl⟩
      · exact Or.inl ⟨rfl, rfl, rfl⟩

theorem publishSetpoint_frame (C : SpeedCfg) (st : FollowSt) (risk : ℝ) :
    (followStep C st (.command risk)).goal = st.goal ∧ (followStep C st (.command risk)).path = st.path ∧
    (followStep C st (.command risk)).lastGoal = st.lastGoal := by
  unfold followStep publishSetpoint
  dsimp only
  cases commandedSpeed C risk with
  | none => exact ⟨rfl, rfl, rfl⟩
  | some v =>
      dsimp only
      cases setpoint st.goal.position st.here.position v with
      | none => exact ⟨rfl, rfl, rfl⟩
      | some p => exact ⟨rfl, rfl, rfl⟩

/-- **C78**: after a path of at least two poses was set, whatever position messages and commands arrive, the last goal, the current goal and the
goals still to come are always consecutive poses of that path, up to its end: no pose is skipped, none repeated, none made up. -/
theorem C78_follows_path (C : SpeedCfg) (st : FollowSt) (poses : List (GPose ℝ ℝ)) (h : 2 ≤ poses.length) (es : List FollowEvent) :
    let s := es.foldl (followStep C) (setCurrentPath st poses)
    ∃ before, poses = before ++ s.lastGoal :: s.goal :: s.path := by
  dsimp only
  induction es using List.reverseRecOn with
  | nil =>
      match poses with
      | [] => exact absurd h (by simp)
      | [a] => exact absurd h (by simp)
      | a :: b :: rest => exact ⟨[], rfl⟩
  | append_singleton l e ih =>
      rw [List.foldl_append, List.foldl_cons, List.foldl_nil]
      generalize l.foldl (followStep C) (setCurrentPath st poses) = s at ih
      obtain ⟨before, hb⟩ := ih
      cases e with
      | command risk =>
          obtain ⟨h1, h2, h3⟩ := publishSetpoint_frame C s risk
          exact ⟨before, by rw [h1, h2, h3]; exact hb⟩
      | pose p =>
          show ∃ before, poses = before ++ (followPosition s p).lastGoal :: (followPosition s p).goal :: (followPosition s p).path
          rcases followPosition_cases s p with ⟨h1, h2, h3⟩ | ⟨_, _, h3, h4⟩
          · exact ⟨before, by rw [h1, h2, h3]; exact hb⟩
          · refine ⟨before ++ [s.lastGoal], ?_⟩
            rw [List.append_assoc, List.singleton_append, h4, ← h3]
            exact hb

/-- **C78**: a goal is only left when the vehicle is closer to it than its speed, and then for the next one; the last pose is never left. -/
theorem C78_leaves_goal_only_when_close (st : FollowSt) (p : GPose ℝ ℝ) :
    ((followPosition st p).goal ≠ st.goal → dist3 st.goal.position p.position < st.speed ∧ st.path.head? = some (followPosition st p).goal) ∧
    (st.path = [] → (followPosition st p).goal = st.goal ∧ (followPosition st p).path = []) := by
  rcases followPosition_cases st p with ⟨h1, h2, _⟩ | ⟨h1, _, h3, _⟩
  · exact ⟨fun h => absurd h1 h, fun h => ⟨h1, by rw [h2, h]⟩⟩
  · refine ⟨fun _ => ⟨h1, by rw [h3]; rfl⟩, fun h => ?_⟩
    rw [h] at h3
    exact absurd h3 (by simp)

theorem yawDiff_bounds (a b : ℝ) : 0 ≤ yawDiff a b ∧ yawDiff a b < 2 * Real.pi := by
  unfold yawDiff
  have hp : 0 < 2 * Real.pi := by positivity
  generalize |b - a| = d
  have h1 := Int.floor_le (d / (2 * Real.pi))
  have h2 := Int.lt_floor_add_one (d / (2 * Real.pi))
  rw [le_div_iff₀ hp] at h1
  rw [div_lt_iff₀ hp] at h2
  constructor <;> linarith

/-- **C78** (violated): "facing the right direction" is no restriction: it only fails when the yaws differ by exactly half a turn. -/
theorem C78_yaw_check_violated (yaw1 yaw2 : ℝ) : ¬ facing yaw1 yaw2 ↔ ∃ k : ℤ, |yaw2 - yaw1| = Real.pi + k * (2 * Real.pi) := by
  unfold facing
  rw [div_one]
  have hp := Real.pi_pos
  constructor
  · intro h
    rw [not_or, not_lt, not_lt] at h
    have e : yawDiff yaw1 yaw2 = Real.pi := by linarith [h.1, h.2]
    refine ⟨⌊|yaw2 - yaw1| / (2 * Real.pi)⌋, ?_⟩
    unfold yawDiff at e
    linarith
  · rintro ⟨k, hk⟩
    have hfl : ⌊|yaw2 - yaw1| / (2 * Real.pi)⌋ = k := by
      rw [Int.floor_eq_iff, hk]
      have e : (Real.pi + k * (2 * Real.pi)) / (2 * Real.pi) = k + 1 / 2 := by
        field_simp
        ring
      rw [e]
      constructor <;> linarith
    have e : yawDiff yaw1 yaw2 = Real.pi := by
      unfold yawDiff
      rw [hfl, hk]
      ring
    rw [e, not_or, not_lt, not_lt]
    constructor <;> linarith

/-- **C78** (progress): if the vehicle's position comes within its speed of each goal in turn (not exactly facing backwards), it is led to the end of
the path: after as many such messages as there are goals left, the current goal is the last pose. -/
theorem C78_reaches_end (st : FollowSt) (ps : List (GPose ℝ ℝ)) (hlen : ps.length = st.path.length)
    (hclose : ∀ (i : ℕ) (a p : GPose ℝ ℝ), (st.goal :: st.path)[i]? = some a → ps[i]? = some p →
      dist3 a.position p.position < st.speed ∧ facing a.orientation p.orientation) :
    let s := ps.foldl followPosition st
    s.path = [] ∧ some s.goal = (st.goal :: st.path).getLast? := by
  dsimp only
  induction ps generalizing st with
  | nil =>
      have : st.path = [] := List.length_eq_zero_iff.mp hlen.symm
      rw [List.foldl_nil, this]
      exact ⟨rfl, rfl⟩
  | cons p t ih =>
      rw [List.foldl_cons]
      obtain ⟨h1, h2⟩ := hclose 0 st.goal p rfl rfl
      cases hp : st.path with
      | nil => rw [hp] at hlen; exact absurd hlen (by simp)
      | cons a l =>
          have e : followPosition st p = { st with here := p, lastGoal := st.goal, goal := a, path := l } := by
            unfold followPosition
            dsimp only
            rw [hp]
            dsimp only
            rw [if_pos ⟨h1, h2⟩]
          rw [e]
          have := ih { st with here := p, lastGoal := st.goal, goal := a, path := l } (by rw [hp] at hlen; simpa using hlen) (by
            intro i b q hb hq
            refine hclose (i + 1) b q ?_ hq
            rw [hp]
            exact hb)
          rw [List.getLast?_cons_cons]
          exact this

example : ∃ (st : FollowSt) (ps : List (GPose ℝ ℝ)), ps.length = st.path.length ∧ ps ≠ [] ∧
    ∀ (i : ℕ) (a p : GPose ℝ ℝ), (st.goal :: st.path)[i]? = some a → ps[i]? = some p → dist3 a.position p.position < st.speed ∧ facing a.orientation p.orientation := by
  refine ⟨⟨⟨⟨0, 0, 3⟩, 0⟩, ⟨⟨1, 0, 3⟩, 0⟩, [⟨⟨2, 0, 3⟩, 0⟩], ⟨⟨0, 0, 3⟩, 0⟩, 1⟩, [⟨⟨1, 0, 3⟩, 0⟩], rfl, by simp, ?_⟩
  intro i a p ha hp
  cases i with
  | zero =>
      rw [List.getElem?_cons_zero, Option.some_inj] at ha hp
      rw [← ha, ← hp]
      refine ⟨?_, ?_⟩
      · unfold dist3 V3.norm V3.dot V3.minus
        norm_num
      · left
        unfold yawDiff
        norm_num
        exact Real.pi_pos
  | succ i => exact absurd hp (by simp)

/-! ## C79: a failed plan -/

/-- **C79** (violated): when planning fails, the old path is published again from its beginning: the vehicle, wherever it is on the path, is sent back to its
second pose. -/
theorem C79_failure_restarts_path_violated (sc yaw : ℝ) (E : PlanEnv ℝ) (st : GpSt ℝ) (f : FollowSt) (hfail : (getGlobalPath sc E st).2 = false)
    (simplify : List Cell → List Cell) (a b : Cell) (rest : List Cell) (hs : simplify st.path = a :: b :: rest) :
    (planPath sc E st).path = st.path ∧ (publishPath sc yaw simplify f (planPath sc E st).path).goal.position = b.toPoint sc := by
  have e : (planPath sc E st).path = st.path := by
    unfold planPath
    dsimp only
    rw [if_pos hfail]
    unfold getGlobalPath at hfail ⊢
    split
    · rfl
    · split
      · rfl
      · dsimp only
        rename_i h1 h2
        rw [if_neg h1, if_neg h2] at hfail
        dsimp only at hfail
        cases hp : (E.find st).path with
        | none => rfl
        | some p => rw [hp] at hfail; exact absurd hfail (by simp)
  refine ⟨e, ?_⟩
  rw [e]
  unfold publishPath
  rw [hs]
  unfold pathPoses
  cases rest with
  | nil => rfl
  | cons c l => rfl

/-- **C79** (violated): "STOP" (no goal left and the goal blocked) does not stop the vehicle if the next plan fails too: it goes on to the goal it had. -/
theorem C79_stop_keeps_flying_violated (sc yaw : ℝ) (E : PlanEnv ℝ) (st : GpSt ℝ) (f : FollowSt) (hfail : (getGlobalPath sc E (stop sc st)).2 = false)
    (simplify : List Cell → List Cell) (hs : ∀ l, l.length < 3 → simplify l = l) :
    (publishPath sc yaw simplify f (planPath sc E (stop sc st)).path).goal = f.goal := by
  have e : (planPath sc E (stop sc st)).path = [cellOf sc st.pos] := by
    unfold planPath
    dsimp only
    rw [if_pos hfail]
    unfold getGlobalPath at hfail ⊢
    split
    · rfl
    · split
      · rfl
      · dsimp only
        rename_i h1 h2
        rw [if_neg h1, if_neg h2] at hfail
        dsimp only at hfail
        cases hp : (E.find (stop sc st)).path with
        | none => rfl
        | some p => rw [hp] at hfail; exact absurd hfail (by simp)
  rw [e]
  unfold publishPath
  rw [hs _ (by simp)]
  rfl

/-- **C79**: a successful plan is followed from its second cell on: the goals are the centres of the cells of the simplified path. -/
theorem C79_success (sc yaw : ℝ) (simplify : List Cell → List Cell) (f : FollowSt) (path : List Cell) (a b : Cell) (rest : List Cell)
    (hs : simplify path = a :: b :: rest) :
    let s := publishPath sc yaw simplify f path
    s.lastGoal.position = a.toPoint sc ∧ s.goal.position = b.toPoint sc ∧ s.path.map GPose.position = rest.map (Cell.toPoint sc) := by
  have key : ∀ (l : List Cell) (y : ℝ), (pathPoses sc y l).map GPose.position = l.map (Cell.toPoint sc) := by
    intro l
    induction l with
    | nil => intro y; rfl
    | cons c t ih =>
        intro y
        cases t with
        | nil => rfl
        | cons d t' =>
            unfold pathPoses
            rw [List.map_cons, ih]
            rfl
  have h1 := key (simplify path) yaw
  dsimp only
  unfold publishPath
  rw [hs] at h1 ⊢
  generalize setCurrentPath f (pathPoses sc yaw path) = g
  cases hq : pathPoses sc yaw (a :: b :: rest) with
  | nil => rw [hq] at h1; exact absurd h1 (by simp)
  | cons x t =>
      cases t with
      | nil => rw [hq] at h1; exact absurd h1 (by simp)
      | cons y t' =>
          rw [hq] at h1
          simp only [List.map_cons, List.cons.injEq] at h1
          exact h1

/-- the model of the node's simplification meets the hypotheses -/
example (sc yaw : ℝ) (cost : Node → Node → Option ℝ) (E : PlanEnv ℝ) (st : GpSt ℝ) (f : FollowSt) (it : ℤ) (m : ℝ)
    (hfail : (getGlobalPath sc E (stop sc st)).2 = false) :
    (publishPath sc yaw (fun p => nodeSimplify cost p it m) f (planPath sc E (stop sc st)).path).goal = f.goal := by
  refine C79_stop_keeps_flying_violated sc yaw E st f hfail _ ?_
  intro l hl
  unfold nodeSimplify simplifyPath
  rw [if_pos hl]

/-! ## C80: the path message -/

/-- **C80**: the path message has one pose per cell, in order, at the centre of the cell; its yaw is the direction of the next cell if that is not straight
above or below, otherwise the yaw of the pose before (for the first: of the vehicle); the last pose keeps the yaw of the one before. -/
theorem C80_path_message (sc yaw : ℝ) (path : List Cell) :
    (pathPoses sc yaw path).length = path.length ∧
    (pathPoses sc yaw path).map GPose.position = path.map (Cell.toPoint sc) ∧
    (∀ (i : ℕ) (p : GPose ℝ ℝ), (pathPoses sc yaw path)[i]? = some p →
      let before := if i = 0 then yaw else ((pathPoses sc yaw path)[i - 1]?.map GPose.orientation).getD yaw
      (∀ c d, path[i]? = some c → path[i + 1]? = some d →
        p.orientation = if d.x = c.x ∧ d.y = c.y then before else atan2 ((d.y - c.y : ℤ) : ℝ) ((d.x - c.x : ℤ) : ℝ)) ∧
      (path[i + 1]? = none → p.orientation = before)) := by
  induction path generalizing yaw with
  | nil => exact ⟨rfl, rfl, fun i p h => absurd h (by simp [pathPoses])⟩
  | cons c t ih =>
      cases t with
      | nil =>
          refine ⟨rfl, rfl, ?_⟩
          intro i p h
          cases i with
          | zero =>
              unfold pathPoses at h
              rw [List.getElem?_cons_zero, Option.some_inj] at h
              dsimp only
              rw [if_pos rfl, ← h]
              exact ⟨fun _ _ _ h => absurd h (by simp), fun _ => rfl⟩
          | succ i => exact absurd h (by simp [pathPoses])
      | cons d t' =>
          obtain ⟨h1, h2, h3⟩ := ih (nextYaw c d yaw)
          unfold pathPoses
          refine ⟨by rw [List.length_cons, h1]; rfl, by rw [List.map_cons, h2]; rfl, ?_⟩
          intro i p h
          cases i with
          | zero =>
              rw [List.getElem?_cons_zero, Option.some_inj] at h
              dsimp only
              rw [if_pos rfl, ← h]
              refine ⟨?_, fun h => absurd h (by simp)⟩
              intro c' d' hc hd
              have e1 : c = c' := by simpa using hc
              have e2 : d = d' := by simpa using hd
              rw [← e1, ← e2]
              unfold nextYaw Cell.angle Cell.sub
              dsimp only
              by_cases hz : d.x = c.x ∧ d.y = c.y
              · rw [if_pos hz, if_pos ⟨by omega, by omega⟩]
              · rw [if_neg hz, if_neg (by rintro ⟨a, b⟩; exact hz ⟨by omega, by omega⟩)]
          | succ i =>
              rw [List.getElem?_cons_succ] at h
              have h4 := h3 i p h
              dsimp only at h4 ⊢
              have eb : (if i + 1 = 0 then yaw else
                  (((⟨c.toPoint sc, nextYaw c d yaw⟩ : GPose ℝ ℝ) :: pathPoses sc (nextYaw c d yaw) (d :: t'))[i + 1 - 1]?.map GPose.orientation).getD yaw) =
                  if i = 0 then nextYaw c d yaw else ((pathPoses sc (nextYaw c d yaw) (d :: t'))[i - 1]?.map GPose.orientation).getD (nextYaw c d yaw) := by
                rw [if_neg (by omega), Nat.add_sub_cancel]
                cases i with
                | zero => rfl
                | succ j =>
                    rw [List.getElem?_cons_succ, if_neg (by omega), Nat.add_sub_cancel]
                    have hj : j < (pathPoses sc (nextYaw c d yaw) (d :: t')).length := by
                      have := (List.getElem?_eq_some_iff.mp h).1
                      omega
                    rw [List.getElem?_eq_getElem hj]
                    rfl
              rw [eb]
              exact h4

example (yaw : ℝ) : ((pathPoses 1 yaw [⟨0, 0, 3⟩, ⟨0, 0, 4⟩, ⟨0, 1, 4⟩])[0]?.map GPose.orientation) = some yaw := by
  unfold pathPoses nextYaw
  simp

end Global
end Avoidance
