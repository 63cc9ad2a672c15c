import Verif.AvoidanceNode
import Mathlib.Tactic.Linarith
import Mathlib.Tactic.NormNum
import Mathlib.Algebra.Order.Field.Basic
import Mathlib.Algebra.Order.Ring.Rat

/-!
# C21 (watchdog), C22 (PX4 parameters), C23 (mission speed)
-/
set_option linter.unusedSectionVars false

namespace Avoidance
variable {K : Type*} [Field K] [LinearOrder K] [IsStrictOrderedRing K]

/-! ## C21 -/

/-- Severity of a status: everything below CRITICAL counts as healthy. -/
def severity : MavState → ℕ
  | .CRITICAL => 1
  | .FLIGHT_TERMINATION => 2
  | _ => 0

/-- **C21 (one check).** Data and up-time over 15 s: termination.  Otherwise data over 0.5 s and
up-time over 5 s: CRITICAL and hover requested.  Otherwise, unless hover is requested, ACTIVE;
with hover requested nothing changes. The hover request is never cleared. -/
theorem C21_check (age up : K) (s : Watchdog) :
    (15 < age → 15 < up → checkFailsafe age up s = ⟨.FLIGHT_TERMINATION, s.hover⟩) ∧
    (¬ (15 < age ∧ 15 < up) → 1 / 2 < age → 5 < up → checkFailsafe age up s = ⟨.CRITICAL, true⟩) ∧
    ((age ≤ 1 / 2 ∨ up ≤ 5) → s.hover = false → checkFailsafe age up s = ⟨.ACTIVE, false⟩) ∧
    ((age ≤ 1 / 2 ∨ up ≤ 5) → s.hover = true → checkFailsafe age up s = s) := by
  obtain ⟨st, hv⟩ := s
  unfold checkFailsafe
  refine ⟨?_, ?_, ?_, ?_⟩
  · intro h1 h2; simp [h1, h2]
  · intro h1 h2 h3
    rw [if_neg h1, if_pos ⟨h2, h3⟩]
  · rintro h1 rfl
    have e1 : ¬ (age > 15 ∧ up > 15) := by
      rintro ⟨a, b⟩; rcases h1 with h | h <;> linarith
    have e2 : ¬ (age > 1 / 2 ∧ up > 5) := by
      rintro ⟨a, b⟩; rcases h1 with h | h <;> linarith
    rw [if_neg e1, if_neg e2]; simp
  · rintro h1 rfl
    have e1 : ¬ (age > 15 ∧ up > 15) := by
      rintro ⟨a, b⟩; rcases h1 with h | h <;> linarith
    have e2 : ¬ (age > 1 / 2 ∧ up > 5) := by
      rintro ⟨a, b⟩; rcases h1 with h | h <;> linarith
    rw [if_neg e1, if_neg e2]; simp

/-- During start-up (5 s) the watchdog never raises an alarm. -/
theorem C21_no_alarm_during_startup (age up : K) (h : up ≤ 5) (s : Watchdog) :
    severity (checkFailsafe age up s).status ≤ severity s.status := by
  have h3 := (C21_check age up s).2.2
  cases hv : s.hover with
  | false => rw [h3.1 (Or.inr h) hv]; simp [severity]
  | true => rw [h3.2 (Or.inr h) hv]

/-- Invariant used for the escalation theorem. -/
def WdInv (age up : K) (s : Watchdog) : Prop :=
  (s.status = .CRITICAL → 1 / 2 < age ∧ 5 < up) ∧
  (s.status = .FLIGHT_TERMINATION → 15 < age ∧ 15 < up)

theorem wd_step {age up age' up' : K} {s : Watchdog} (hi : WdInv age up s) (ha : age ≤ age')
    (hu : up ≤ up') :
    WdInv age' up' (checkFailsafe age' up' s) ∧
    severity s.status ≤ severity (checkFailsafe age' up' s).status := by
  obtain ⟨c1, c2, c3, c4⟩ := C21_check age' up' s
  obtain ⟨i1, i2⟩ := hi
  by_cases t : 15 < age' ∧ 15 < up'
  · rw [c1 t.1 t.2]
    refine ⟨⟨by simp, fun _ => t⟩, ?_⟩
    cases s.status <;> simp [severity]
  · by_cases c : 1 / 2 < age' ∧ 5 < up'
    · rw [c2 t c.1 c.2]
      refine ⟨⟨fun _ => c, by simp⟩, ?_⟩
      cases hs : s.status <;> simp [severity]
      have := i2 hs
      exact t ⟨by linarith, by linarith⟩
    · have hq : age' ≤ 1 / 2 ∨ up' ≤ 5 := by
        by_contra h; push Not at h; exact c h
      have hst : s.status ≠ .CRITICAL ∧ s.status ≠ .FLIGHT_TERMINATION := by
        constructor
        · intro h
          have := i1 h
          exact c ⟨by linarith, by linarith⟩
        · intro h
          have := i2 h
          exact c ⟨by linarith, by linarith⟩
      cases hv : s.hover with
      | false =>
        rw [c3 hq hv]
        refine ⟨⟨by simp, by simp⟩, ?_⟩
        revert hst; cases s.status <;> simp [severity]
      | true =>
        rw [c4 hq hv]
        exact ⟨⟨fun h => absurd h hst.1, fun h => absurd h hst.2⟩, le_rfl⟩

/-- **C21 (escalation).** While no new data arrives (the age only grows) and time passes, a run of
checks that starts healthy only escalates: for every split of the run, the status after more
checks is at least as severe as before. -/
theorem C21_escalation_monotone (cs ds : List (K × K)) (s : Watchdog)
    (hs : severity s.status = 0)
    (hmono : (cs ++ ds).Pairwise (fun a b => a.1 ≤ b.1 ∧ a.2 ≤ b.2)) :
    severity (runFailsafe s cs).status ≤ severity (runFailsafe s (cs ++ ds)).status := by
  have main : ∀ (l : List (K × K)) (s : Watchdog) (a u : K), WdInv a u s →
      (∀ c ∈ l, a ≤ c.1 ∧ u ≤ c.2) → l.Pairwise (fun a b => a.1 ≤ b.1 ∧ a.2 ≤ b.2) →
      severity s.status ≤ severity (runFailsafe s l).status := by
    intro l
    induction l with
    | nil => intro s a u _ _ _; exact le_rfl
    | cons c l ih =>
      intro s a u hi hb hp
      obtain ⟨hc, hp'⟩ := List.pairwise_cons.1 hp
      have h := wd_step hi (hb c (by simp)).1 (hb c (by simp)).2
      exact le_trans h.2 (ih _ _ _ h.1 hc hp')
  have start : ∀ a u : K, WdInv a u s := by
    intro a u
    constructor <;> intro h <;> rw [h] at hs <;> simp [severity] at hs
  have gen : ∀ (l ds : List (K × K)) (s : Watchdog) (a u : K), WdInv a u s →
      (∀ c ∈ l ++ ds, a ≤ c.1 ∧ u ≤ c.2) →
      (l ++ ds).Pairwise (fun a b => a.1 ≤ b.1 ∧ a.2 ≤ b.2) →
      severity (runFailsafe s l).status ≤ severity (runFailsafe s (l ++ ds)).status := by
    intro l
    induction l with
    | nil => intro ds s a u hi hb hp; exact main ds s a u hi hb hp
    | cons c l ih =>
      intro ds s a u hi hb hp
      obtain ⟨hc, hp'⟩ := List.pairwise_cons.1 hp
      have h := wd_step hi (hb c (by simp)).1 (hb c (by simp)).2
      exact ih ds _ _ _ h.1 hc hp'
  cases cs with
  | nil =>
    cases ds with
    | nil => exact le_rfl
    | cons d ds => rw [show runFailsafe s [] = s from rfl, hs]; exact Nat.zero_le _
  | cons c cs =>
    obtain ⟨hc, hp'⟩ := List.pairwise_cons.1 hmono
    have h := wd_step (start c.1 c.2) (le_refl c.1) (le_refl c.2)
    exact gen cs ds _ _ _ h.1 hc hp'

/-- **C21 (no silent recovery).** Once hover has been requested, no run of checks leads to ACTIVE,
whatever data arrives: the watchdog itself never re-activates (only the caller that clears the
hover request can). -/
theorem C21_no_reactivation_while_hovering (cs : List (K × K)) (s : Watchdog)
    (hh : s.hover = true) (hs : s.status ≠ .ACTIVE) :
    (runFailsafe s cs).hover = true ∧ (runFailsafe s cs).status ≠ .ACTIVE := by
  induction cs generalizing s with
  | nil => exact ⟨hh, hs⟩
  | cons c cs ih =>
    apply ih
    · unfold checkFailsafe; split_ifs <;> simp [hh]
    · unfold checkFailsafe; split_ifs <;> simp [hs]

/-- A termination status is not sticky: with fresh data and no hover request one check sets
ACTIVE again. -/
theorem C21_termination_not_sticky :
    checkFailsafe (K := ℚ) (1 / 10) 100 ⟨.FLIGHT_TERMINATION, false⟩ = ⟨.ACTIVE, false⟩ := by
  decide +kernel

example : ([((1 : ℚ) / 10, (1 : ℚ)), (1, 6), (16, 21)].map Prod.fst) = [1 / 10, 1, 16] ∧
    (runFailsafe ⟨.BOOT, false⟩ [((1 : ℚ) / 10, (1 : ℚ))]).status = .ACTIVE ∧
    (runFailsafe ⟨.BOOT, false⟩ [((1 : ℚ) / 10, (1 : ℚ)), (1, 6)]).status = .CRITICAL ∧
    (runFailsafe ⟨.BOOT, false⟩ [((1 : ℚ) / 10, (1 : ℚ)), (1, 6), (16, 21)]).status
      = .FLIGHT_TERMINATION := by
  decide +kernel

/-! ## C22 -/

/-- Which PX4 parameter each float member stands for. -/
def floatParams : List (String × (ModelParameters K → Flt K)) :=
  [("MPC_JERK_MIN", (·.jerk_min)), ("MPC_JERK_MAX", (·.jerk_max)),
   ("MPC_ACC_UP_MAX", (·.acc_up_max)), ("MPC_Z_VEL_MAX_UP", (·.z_vel_max_up)),
   ("MPC_ACC_DOWN_MAX", (·.acc_down_max)), ("MPC_Z_VEL_MAX_DN", (·.z_vel_max_dn)),
   ("MPC_ACC_HOR", (·.acc_hor)), ("MPC_XY_CRUISE", (·.xy_cruise)),
   ("MPC_TKO_SPEED", (·.tko_speed)), ("MPC_LAND_SPEED", (·.land_speed)),
   ("MPC_YAWRAUTO_MAX", (·.yawrauto_max)), ("NAV_ACC_RAD", (·.nav_acc_rad)),
   ("CP_DIST", (·.cp_dist))]

/-- The parameters the node insists on (those not in this list are never polled). -/
def requiredParams : List String :=
  ["MPC_JERK_MAX", "MPC_ACC_UP_MAX", "MPC_Z_VEL_MAX_UP", "MPC_ACC_DOWN_MAX", "MPC_Z_VEL_MAX_DN",
   "MPC_ACC_HOR", "MPC_XY_CRUISE", "MPC_LAND_SPEED", "MPC_YAWRAUTO_MAX", "NAV_ACC_RAD", "CP_DIST"]

/-- **C22 (one message).** A parameter message sets exactly the parameter it names (the integer
one from the integer member) and nothing else; unknown names change nothing. -/
theorem C22_message (p : ModelParameters K) (m : ParamMsg K) :
    (∀ e ∈ floatParams (K := K), e.2 (px4ParamsCallback p m) = if m.id = e.1 then m.real else e.2 p) ∧
    (px4ParamsCallback p m).auto_mode = (if m.id = "MPC_AUTO_MODE" then m.integer else p.auto_mode) ∧
    ((∀ e ∈ floatParams (K := K), m.id ≠ e.1) → m.id ≠ "MPC_AUTO_MODE" → px4ParamsCallback p m = p) := by
  obtain ⟨id, real, integer⟩ := m
  by_cases h0 : id = "MPC_ACC_DOWN_MAX"
  · subst h0; simp [px4ParamsCallback, floatParams]
  by_cases h1 : id = "MPC_ACC_HOR"
  · subst h1; simp [px4ParamsCallback, floatParams]
  by_cases h2 : id = "MPC_ACC_UP_MAX"
  · subst h2; simp [px4ParamsCallback, floatParams]
  by_cases h3 : id = "MPC_AUTO_MODE"
  · subst h3; simp [px4ParamsCallback, floatParams]
  by_cases h4 : id = "MPC_JERK_MIN"
  · subst h4; simp [px4ParamsCallback, floatParams]
  by_cases h5 : id = "MPC_JERK_MAX"
  · subst h5; simp [px4ParamsCallback, floatParams]
  by_cases h6 : id = "MPC_LAND_SPEED"
  · subst h6; simp [px4ParamsCallback, floatParams]
  by_cases h7 : id = "MPC_TKO_SPEED"
  · subst h7; simp [px4ParamsCallback, floatParams]
  by_cases h8 : id = "MPC_XY_CRUISE"
  · subst h8; simp [px4ParamsCallback, floatParams]
  by_cases h9 : id = "MPC_Z_VEL_MAX_DN"
  · subst h9; simp [px4ParamsCallback, floatParams]
  by_cases h10 : id = "MPC_Z_VEL_MAX_UP"
  · subst h10; simp [px4ParamsCallback, floatParams]
  by_cases h11 : id = "CP_DIST"
  · subst h11; simp [px4ParamsCallback, floatParams]
  by_cases h12 : id = "NAV_ACC_RAD"
  · subst h12; simp [px4ParamsCallback, floatParams]
  by_cases h13 : id = "MPC_YAWRAUTO_MAX"
  · subst h13; simp [px4ParamsCallback, floatParams]
  simp [px4ParamsCallback, floatParams, h0, h1, h2, h3, h4, h5, h6, h7, h8, h9, h10, h11, h12, h13]

/-- **C22 (histories).** After any messages each parameter holds the value of the last message
naming it, or its initial value if there was none. -/
theorem C22_messages (p : ModelParameters K) (ms : List (ParamMsg K)) :
    (∀ e ∈ floatParams (K := K),
      e.2 (ms.foldl px4ParamsCallback p) =
        (((ms.filter (fun m => m.id = e.1)).map (·.real)).getLast?).getD (e.2 p)) ∧
    (ms.foldl px4ParamsCallback p).auto_mode =
      (((ms.filter (fun m => m.id = "MPC_AUTO_MODE")).map (·.integer)).getLast?).getD p.auto_mode := by
  constructor
  · intro e he
    induction ms using List.reverseRecOn with
    | nil => simp
    | append_singleton ms m ih =>
      rw [List.foldl_append]
      simp only [List.foldl_cons, List.foldl_nil]
      rw [(C22_message _ m).1 e he, ih]
      by_cases c : m.id = e.1 <;> simp [c, List.filter_append]
  · induction ms using List.reverseRecOn with
    | nil => simp
    | append_singleton ms m ih =>
      rw [List.foldl_append]
      simp only [List.foldl_cons, List.foldl_nil]
      rw [(C22_message _ m).2.1, ih]
      by_cases c : m.id = "MPC_AUTO_MODE" <;> simp [c, List.filter_append]

/-- **C22 (before any answer).** A parameter nobody has reported is not a number (the integer one: -1, which is no mode), so it cannot be mistaken for a value of the
vehicle. -/
theorem C22_unknown : (∀ e ∈ floatParams (K := K), (e.2 defaultParameters).isNaN = true) ∧ (defaultParameters : ModelParameters K).auto_mode = -1 := by
  refine ⟨?_, rfl⟩
  intro e he
  simp only [floatParams, List.mem_cons, List.not_mem_nil, or_false] at he
  rcases he with rfl | rfl | rfl | rfl | rfl | rfl | rfl | rfl | rfl | rfl | rfl | rfl | rfl <;> rfl

/-- **C22 (polling).** One poll sets every required parameter the service answers and leaves
everything else; it is followed by a 30 s pause exactly when afterwards all required parameters
are finite numbers, by 5 s otherwise. -/
theorem C22_poll (ans : ParamAnswers K) (p : ModelParameters K) :
    (∀ e ∈ floatParams (K := K), e.2 (pollParameters ans p).1 =
      if e.1 ∈ requiredParams then (ans e.1).getD (e.2 p) else e.2 p) ∧
    (pollParameters ans p).1.auto_mode = p.auto_mode ∧
    ((pollParameters ans p).2 = 30 ↔ ∀ e ∈ floatParams (K := K), e.1 ∈ requiredParams →
      (e.2 (pollParameters ans p).1).isFinite = true) ∧
    ((pollParameters ans p).2 = 30 ∨ (pollParameters ans p).2 = 5) := by
  refine ⟨?_, rfl, ?_, ?_⟩
  · intro e he
    simp only [floatParams, List.mem_cons, List.not_mem_nil, or_false] at he
    rcases he with rfl | rfl | rfl | rfl | rfl | rfl | rfl | rfl | rfl | rfl | rfl | rfl | rfl <;>
      simp [pollParameters, requiredParams]
  · unfold pollParameters
    generalize hq : ({ p with
      acc_hor := (ans "MPC_ACC_HOR").getD p.acc_hor
      acc_down_max := (ans "MPC_ACC_DOWN_MAX").getD p.acc_down_max
      acc_up_max := (ans "MPC_ACC_UP_MAX").getD p.acc_up_max
      xy_cruise := (ans "MPC_XY_CRUISE").getD p.xy_cruise
      z_vel_max_dn := (ans "MPC_Z_VEL_MAX_DN").getD p.z_vel_max_dn
      z_vel_max_up := (ans "MPC_Z_VEL_MAX_UP").getD p.z_vel_max_up
      cp_dist := (ans "CP_DIST").getD p.cp_dist
      land_speed := (ans "MPC_LAND_SPEED").getD p.land_speed
      jerk_max := (ans "MPC_JERK_MAX").getD p.jerk_max
      nav_acc_rad := (ans "NAV_ACC_RAD").getD p.nav_acc_rad
      yawrauto_max := (ans "MPC_YAWRAUTO_MAX").getD p.yawrauto_max } : ModelParameters K) = q
    dsimp only
    simp only [floatParams, List.forall_mem_cons, requiredParams]
    have hf : (5 : ℕ) = 30 ↔ False := by decide
    cases h1 : q.xy_cruise.isFinite <;> cases h2 : q.cp_dist.isFinite <;>
      cases h3 : q.land_speed.isFinite <;> cases h4 : q.nav_acc_rad.isFinite <;>
      simp
    cases h5 : q.acc_hor.isFinite <;> cases h6 : q.jerk_max.isFinite <;>
      cases h7 : q.acc_down_max.isFinite <;> cases h8 : q.acc_up_max.isFinite <;>
      simp
    cases h9 : q.z_vel_max_dn.isFinite <;> cases h10 : q.z_vel_max_up.isFinite <;>
      cases h11 : q.yawrauto_max.isFinite <;> simp
  · unfold pollParameters
    dsimp only
    split_ifs <;> simp

/-- Non-vacuity: an unanswered parameter keeps the 5 s poll; with all answered it is 30 s although
`MPC_TKO_SPEED`, `MPC_JERK_MIN` and `MPC_AUTO_MODE` were never received. -/
example : (pollParameters (K := ℚ) (fun n => if n = "CP_DIST" then none else some (.fin 1))
      defaultParameters).2 = 5 ∧
    (pollParameters (K := ℚ) (fun _ => some (.fin 1)) defaultParameters).2 = 30 ∧
    (pollParameters (K := ℚ) (fun _ => some (.fin 1)) defaultParameters).1.tko_speed = .nan := by
  decide +kernel

/-! ## C23 -/

/-- A mission item that sets a (positive) speed: DO_CHANGE_SPEED with speed type at most 1
(up to the `FLT_MIN` tolerance; type 0, airspeed, passes too) and a positive speed. -/
def SetsSpeed (w : MissionItem K) : Prop :=
  w.command = 178 ∧ (w.param1 = .inf false ∨ ∃ x, w.param1 = .fin x ∧ x < 1 + FLT_MIN) ∧
    (w.param2 = .inf true ∨ ∃ v, w.param2 = .fin v ∧ 0 < v)

theorem isSpeedItem_iff (w : MissionItem K) : isSpeedItem w = true ↔ SetsSpeed w := by
  obtain ⟨c, cmd, p1, p2⟩ := w
  unfold isSpeedItem SetsSpeed speedTypeTest
  cases p1 <;> cases p2 <;> simp [Flt.lt, sub_lt_iff_lt_add'] <;> tauto

theorem scanSpeed_spec (speed : Flt K) (ws : List (MissionItem K)) :
    (∃ pre w post, ws = pre ++ w :: post ∧ (∀ x ∈ pre, ¬ SetsSpeed x) ∧ SetsSpeed w ∧
      scanSpeed speed ws = w.param2) ∨
    ((∀ x ∈ ws, ¬ SetsSpeed x) ∧ scanSpeed speed ws = speed) := by
  induction ws with
  | nil => right; simp [scanSpeed]
  | cons w ws ih =>
    by_cases c : isSpeedItem w = true
    · left
      exact ⟨[], w, ws, rfl, by simp, (isSpeedItem_iff w).1 c, by simp [scanSpeed, c]⟩
    · have hc : ¬ SetsSpeed w := fun h => c ((isSpeedItem_iff w).2 h)
      rcases ih with ⟨pre, v, post, h1, h2, h3, h4⟩ | ⟨h1, h2⟩
      · left
        refine ⟨w :: pre, v, post, by rw [h1]; rfl, ?_, h3, by simp [scanSpeed, c, h4]⟩
        intro x hx
        rcases List.mem_cons.1 hx with rfl | hx
        · exact hc
        · exact h2 x hx
      · right
        refine ⟨?_, by simp [scanSpeed, c, h2]⟩
        intro x hx
        rcases List.mem_cons.1 hx with rfl | hx
        · exact hc
        · exact h1 x hx

theorem missionLoop_spec (speed : Flt K) (before done ws : List (MissionItem K)) (cur : MissionItem K)
    (hd : ∀ x ∈ done, x.is_current = false) (hc : cur.is_current = true) :
    missionLoop speed before (done ++ cur :: ws) = scanSpeed speed (cur :: (done.reverse ++ before)) := by
  induction done generalizing before with
  | nil => simp [missionLoop, hc]
  | cons d done ih =>
    have h1 := hd d (by simp)
    simp only [List.cons_append, missionLoop, h1, Bool.false_eq_true, if_false]
    rw [ih (d :: before) (fun x hx => hd x (by simp [hx]))]
    simp

/-- **C23.** Let `cur` be the first current item of the mission.  If some item up to and including
it sets a speed, the mission speed becomes that of the last such item; otherwise, and when no
item is current, the previous value stays.  Items after the current one never matter. -/
theorem C23_mission_speed (speed : Flt K) (done rest : List (MissionItem K)) (cur : MissionItem K)
    (hd : ∀ x ∈ done, x.is_current = false) (hc : cur.is_current = true) :
    (∀ pre w post, done ++ [cur] = pre ++ w :: post → SetsSpeed w → (∀ x ∈ post, ¬ SetsSpeed x) →
      missionCallback speed (done ++ cur :: rest) = w.param2) ∧
    ((∀ x ∈ done ++ [cur], ¬ SetsSpeed x) →
      missionCallback speed (done ++ cur :: rest) = speed) := by
  unfold missionCallback
  rw [missionLoop_spec speed [] done rest cur hd hc]
  have hrev : cur :: (done.reverse ++ []) = (done ++ [cur]).reverse := by simp
  rw [hrev]
  constructor
  · intro pre w post h1 h2 h3
    rw [h1]
    rcases scanSpeed_spec speed (pre ++ w :: post).reverse with ⟨p, v, q, e1, e2, e3, e4⟩ | ⟨e1, -⟩
    · rw [e4]
      have e5 : post.reverse ++ w :: pre.reverse = p ++ v :: q := by simpa using e1
      have e6 : post.reverse = p ∧ w :: pre.reverse = v :: q := by
        rcases List.append_eq_append_iff.1 e5 with ⟨as, h4, h5⟩ | ⟨as, h4, h5⟩
        · cases as with
          | nil => simp at h4 h5; exact ⟨h4.symm, by simp [h5]⟩
          | cons a as =>
            simp only [List.cons_append, List.cons.injEq] at h5
            exact absurd h2 (by rw [h5.1]; exact e2 a (by rw [h4]; simp))
        · cases as with
          | nil => simp at h4 h5; exact ⟨h4, by simp [h5]⟩
          | cons a as =>
            simp only [List.cons_append, List.cons.injEq] at h5
            have : a ∈ post := by
              rw [← List.mem_reverse, h4]; simp
            exact absurd e3 (by rw [h5.1]; exact h3 a this)
      have := e6.2
      simp only [List.cons.injEq] at this
      rw [this.1]
    · exact absurd h2 (e1 w (by simp))
  · intro h
    rcases scanSpeed_spec speed (done ++ [cur]).reverse with ⟨p, v, q, e1, e2, e3, e4⟩ | ⟨-, e2⟩
    · exact absurd e3 (h v (by rw [← List.mem_reverse, e1]; simp))
    · exact e2

/-- C23: without a current item nothing changes. -/
theorem C23_no_current (speed : Flt K) (ws : List (MissionItem K))
    (h : ∀ x ∈ ws, x.is_current = false) : missionCallback speed ws = speed := by
  have : ∀ before, missionLoop speed before ws = speed := by
    induction ws with
    | nil => intro b; rfl
    | cons w ws ih =>
      intro b
      simp only [missionLoop, h w (by simp), Bool.false_eq_true, if_false]
      exact ih (fun x hx => h x (by simp [hx])) _
  exact this []

/-- The code's comment says "ground speed", but an airspeed item (type 0) is accepted. -/
theorem C23_airspeed_accepted :
    missionCallback (K := ℚ) .nan [⟨true, 178, .fin 0, .fin 7⟩] = .fin 7 := by decide +kernel

example : missionCallback (K := ℚ) .nan
    [⟨false, 178, .fin 1, .fin 3⟩, ⟨false, 178, .fin 1, .fin 5⟩, ⟨false, 178, .fin 1, .fin (-2)⟩,
      ⟨true, 16, .nan, .nan⟩, ⟨false, 178, .fin 1, .fin 9⟩] = .fin 5 := by decide +kernel

end Avoidance
