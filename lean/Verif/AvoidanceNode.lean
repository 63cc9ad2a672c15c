import Verif.Cloud

/-!
# `avoidance/src/avoidance_node.cpp` – watchdog, PX4 parameters, mission speed

Model only.  Durations are numbers of seconds.
-/

namespace Avoidance

/-- `enum class MAV_STATE`, avoidance/include/avoidance/common.h:34-45 (the values the code
sets). -/
inductive MavState where
  | BOOT | STANDBY | ACTIVE | CRITICAL | FLIGHT_TERMINATION
deriving DecidableEq, Repr

section
variable {K : Type*} [Field K] [LinearOrder K]

/-- `companion_state_` and the caller's `hover` flag (passed by reference). -/
structure Watchdog where
  status : MavState
  hover : Bool
deriving DecidableEq, Repr

/-- `checkFailsafe`, avoidance_node.cpp:62-83.  `position_received_` is set to true by the
constructor (line 7) and never written again, so its else-branch is omitted; the time-outs are
those of lines 10-12 (15 s, 0.5 s, 5 s). -/
def checkFailsafe (since_last since_start : K) (s : Watchdog) : Watchdog :=
  if since_last > 15 ∧ since_start > 15 then { s with status := .FLIGHT_TERMINATION }
  else if since_last > 1 / 2 ∧ since_start > 5 then { status := .CRITICAL, hover := true }
  else if s.hover then s else { s with status := .ACTIVE }

/-- A run of the watchdog: (age of the data, up-time) at each check. -/
def runFailsafe (s : Watchdog) : List (K × K) → Watchdog
  | [] => s
  | c :: cs => runFailsafe (checkFailsafe c.1 c.2 s) cs

/-- `struct ModelParameters`, avoidance/include/avoidance/common.h:84-105. -/
structure ModelParameters (K : Type*) where
  auto_mode : ℤ
  jerk_min : Flt K
  jerk_max : Flt K
  acc_up_max : Flt K
  z_vel_max_up : Flt K
  acc_down_max : Flt K
  z_vel_max_dn : Flt K
  acc_hor : Flt K
  xy_cruise : Flt K
  tko_speed : Flt K
  land_speed : Flt K
  yawrauto_max : Flt K
  nav_acc_rad : Flt K
  cp_dist : Flt K
deriving DecidableEq

/-- Default member initialisers, common.h:84-105. -/
def defaultParameters : ModelParameters K :=
  ⟨-1, .nan, .nan, .nan, .nan, .nan, .nan, .nan, .nan, .nan, .nan, .nan, .nan, .nan⟩

/-- `mavros_msgs::Param`: the id and both value members. -/
structure ParamMsg (K : Type*) where
  id : String
  real : Flt K
  integer : ℤ

/-- `px4ParamsCallback`, avoidance_node.cpp:85-124: the `||` chain stops at the first name that
matches. -/
def px4ParamsCallback (p : ModelParameters K) (m : ParamMsg K) : ModelParameters K :=
  if m.id = "MPC_ACC_DOWN_MAX" then { p with acc_down_max := m.real }
  else if m.id = "MPC_ACC_HOR" then { p with acc_hor := m.real }
  else if m.id = "MPC_ACC_UP_MAX" then { p with acc_up_max := m.real }
  else if m.id = "MPC_AUTO_MODE" then { p with auto_mode := m.integer }
  else if m.id = "MPC_JERK_MIN" then { p with jerk_min := m.real }
  else if m.id = "MPC_JERK_MAX" then { p with jerk_max := m.real }
  else if m.id = "MPC_LAND_SPEED" then { p with land_speed := m.real }
  else if m.id = "MPC_TKO_SPEED" then { p with tko_speed := m.real }
  else if m.id = "MPC_XY_CRUISE" then { p with xy_cruise := m.real }
  else if m.id = "MPC_Z_VEL_MAX_DN" then { p with z_vel_max_dn := m.real }
  else if m.id = "MPC_Z_VEL_MAX_UP" then { p with z_vel_max_up := m.real }
  else if m.id = "CP_DIST" then { p with cp_dist := m.real }
  else if m.id = "NAV_ACC_RAD" then { p with nav_acc_rad := m.real }
  else if m.id = "MPC_YAWRAUTO_MAX" then { p with yawrauto_max := m.real }
  else p

/-- The service answers of one poll: `answer name = some v` when the call succeeded
(avoidance_node.cpp:128-134). -/
abbrev ParamAnswers (K : Type*) := String → Option (Flt K)

/-- One round of `checkPx4Parameters`, avoidance_node.cpp:136-165: the new parameters and the
number of seconds slept. -/
def pollParameters (ans : ParamAnswers K) (p : ModelParameters K) : ModelParameters K × ℕ :=
  let p := { p with
    acc_hor := (ans "MPC_ACC_HOR").getD p.acc_hor
    acc_down_max := (ans "MPC_ACC_DOWN_MAX").getD p.acc_down_max
    acc_up_max := (ans "MPC_ACC_UP_MAX").getD p.acc_up_max
    xy_cruise := (ans "MPC_XY_CRUISE").getD p.xy_cruise
    z_vel_max_dn := (ans "MPC_Z_VEL_MAX_DN").getD p.z_vel_max_dn
    z_vel_max_up := (ans "MPC_Z_VEL_MAX_UP").getD p.z_vel_max_up
    cp_dist := (ans "CP_DIST").getD p.cp_dist
    land_speed := (ans "MPC_LAND_SPEED").getD p.land_speed
    jerk_max := (ans "MPC_JERK_MAX").getD p.jerk_max
    nav_acc_rad := (ans "NAV_ACC_RAD").getD p.nav_acc_rad
    yawrauto_max := (ans "MPC_YAWRAUTO_MAX").getD p.yawrauto_max }
  let not_initialized :=
    !p.xy_cruise.isFinite || !p.cp_dist.isFinite || !p.land_speed.isFinite ||
    !p.nav_acc_rad.isFinite || !p.acc_hor.isFinite || !p.jerk_max.isFinite ||
    !p.acc_down_max.isFinite || !p.acc_up_max.isFinite || !p.z_vel_max_dn.isFinite ||
    !p.z_vel_max_up.isFinite || !p.yawrauto_max.isFinite
  (p, if not_initialized then 5 else 30)

/-- `mavros_msgs::Waypoint`, the fields read. -/
structure MissionItem (K : Type*) where
  is_current : Bool
  command : ℕ
  param1 : Flt K
  param2 : Flt K

/-- `FLT_MIN` = 2⁻¹²⁶, the smallest positive normal float. -/
def FLT_MIN : K := 1 / 2 ^ 126

/-- `(param1 - 1.0f) < FLT_MIN`; NaN and +∞ give false, -∞ true. -/
def speedTypeTest (p1 : Flt K) : Bool :=
  match p1 with
  | .fin x => decide (x - 1 < FLT_MIN)
  | .nan => false
  | .inf pos => !pos

/-- The inner condition, avoidance_node.cpp:172-173 (`MAV_CMD_DO_CHANGE_SPEED` = 178). -/
def isSpeedItem (w : MissionItem K) : Bool :=
  w.command == 178 && speedTypeTest w.param1 && Flt.lt (.fin 0) w.param2

/-- Inner loop `for (i = index; i >= 0; i--)`, avoidance_node.cpp:171-178; the argument is the
list of items at positions `index, index-1, ..., 0`. -/
def scanSpeed (speed : Flt K) : List (MissionItem K) → Flt K
  | [] => speed
  | w :: ws => if isSpeedItem w then w.param2 else scanSpeed speed ws

/-- Outer loop, avoidance_node.cpp:169-181; `before` holds the items already passed, most recent
first.  `speed` is `mission_item_speed_`. -/
def missionLoop (speed : Flt K) (before : List (MissionItem K)) : List (MissionItem K) → Flt K
  | [] => speed
  | w :: ws =>
    if w.is_current then scanSpeed speed (w :: before) else missionLoop speed (w :: before) ws

/-- `missionCallback`, avoidance_node.cpp:168-182. -/
def missionCallback (speed : Flt K) (ws : List (MissionItem K)) : Flt K := missionLoop speed [] ws

end
end Avoidance
