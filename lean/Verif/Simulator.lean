import Verif.Cost

/-!
# `TrajectorySimulator` (local_planner/src/utils/trajectory_simulator.cpp,
local_planner/include/local_planner/trajectory_simulator.h)

Model only, over the real numbers.  `none` is a NaN (division by a zero velocity, root of a negative
limit) or the exception thrown by `reserve` with a negative size.
-/

namespace Avoidance

/-- `struct simulation_state`, trajectory_simulator.h:8-13. -/
structure SimState where
  time : ℝ
  position : V3 ℝ
  velocity : V3 ℝ
  acceleration : V3 ℝ

/-- `struct simulation_limits`, trajectory_simulator.h:15-21. -/
structure SimLimits where
  max_z_velocity : ℝ
  min_z_velocity : ℝ
  max_xy_velocity_norm : ℝ
  max_acceleration_norm : ℝ
  max_jerk_norm : ℝ

noncomputable section
open Classical

/-- `norm_clamp<3>`, trajectory_simulator.h:47-54. -/
def normClamp3 (val : V3 ℝ) (max_norm : ℝ) : V3 ℝ :=
  let norm_sq := val.dot val
  if norm_sq > max_norm * max_norm then V3.smul (max_norm / Real.sqrt norm_sq) val else val

/-- `norm_clamp<2>`, trajectory_simulator.h:47-54. -/
def normClamp2 (x y : ℝ) (max_norm : ℝ) : ℝ × ℝ :=
  let norm_sq := x * x + y * y
  if norm_sq > max_norm * max_norm then
    (x * (max_norm / Real.sqrt norm_sq), y * (max_norm / Real.sqrt norm_sq))
  else (x, y)

/-- `xy_norm_z_clamp`, trajectory_simulator.cpp:6-11. -/
def xyNormZClamp (val : V3 ℝ) (max_xy_norm min_z max_z : ℝ) : V3 ℝ :=
  let xy := normClamp2 val.x val.y max_xy_norm
  ⟨xy.1, xy.2, min max_z (max min_z val.z)⟩

/-- `simulate_step_constant_jerk`, trajectory_simulator.cpp:70-79. -/
def simulateStep (s : SimState) (jerk : V3 ℝ) (t : ℝ) : SimState :=
  ⟨s.time + t,
   (((s.position.plus (V3.smul t s.velocity)).plus (V3.smul (1 / 2 * (t * t)) s.acceleration)).plus
     (V3.smul (1 / 6 * (t * t * t)) jerk)),
   (s.velocity.plus (V3.smul t s.acceleration)).plus (V3.smul (1 / 2 * (t * t)) jerk),
   s.acceleration.plus (V3.smul t jerk)⟩

/-- `jerk_for_velocity_setpoint`, trajectory_simulator.cpp:81-94. -/
def jerkForVelocitySetpoint (P D max_jerk_norm : ℝ) (desired_velocity : V3 ℝ) (s : SimState) : V3 ℝ :=
  let accel_diff := (⟨0, 0, 0⟩ : V3 ℝ).minus s.acceleration
  let velocity_diff := desired_velocity.minus s.velocity
  normClamp3 ((V3.smul P velocity_diff).plus (V3.smul D accel_diff)) max_jerk_norm

/-- `FLT_EPSILON`. -/
def fltEpsilon : ℝ := 1 / 8388608

/-- `max_accel_norm`, trajectory_simulator.cpp:39. -/
def maxAccelNorm (config : SimLimits) : ℝ :=
  min (2 * Real.sqrt config.max_jerk_norm) config.max_acceleration_norm

/-- `desired_velocity`, trajectory_simulator.cpp:30-34. -/
def desiredVelocity (config : SimLimits) (goal_direction : V3 ℝ) : V3 ℝ :=
  let unit_goal := goal_direction.normalized
  let vz := if unit_goal.z > 0 then config.max_z_velocity else config.min_z_velocity
  xyNormZClamp (V3.smul (Real.sqrt (config.max_xy_velocity_norm * config.max_xy_velocity_norm + vz * vz))
    unit_goal) config.max_xy_velocity_norm config.min_z_velocity config.max_z_velocity

/-- One iteration, trajectory_simulator.cpp:47-65. -/
def simIteration (config : SimLimits) (step_time P D : ℝ) (desired_velocity : V3 ℝ) (s : SimState) : SimState :=
  let damped_jerk := jerkForVelocitySetpoint P D config.max_jerk_norm desired_velocity s
  let requested_accel := s.acceleration.plus (V3.smul step_time damped_jerk)
  let amax := maxAccelNorm config
  if requested_accel.dot requested_accel > amax * amax then
    let single_step_time := (amax - s.acceleration.norm) / damped_jerk.norm
    if single_step_time ≤ fltEpsilon ∨ single_step_time > step_time then
      simulateStep s ⟨0, 0, 0⟩ step_time
    else simulateStep s damped_jerk single_step_time
  else simulateStep s damped_jerk step_time

/-- The loop, trajectory_simulator.cpp:46-66: the states of `n` iterations. -/
def simLoop (config : SimLimits) (step_time P D : ℝ) (desired_velocity : V3 ℝ) :
    ℕ → SimState → List SimState
  | 0, _ => []
  | n + 1, s =>
    let s := simIteration config step_time P D desired_velocity s
    s :: simLoop config step_time P D desired_velocity n s

/-- `P_constant`, trajectory_simulator.cpp:40-42. -/
def pConstant (config : SimLimits) (desired_velocity : V3 ℝ) : ℝ :=
  (Real.sqrt (maxAccelNorm config * maxAccelNorm config + config.max_jerk_norm * desired_velocity.norm) -
    maxAccelNorm config) / desired_velocity.norm * 10

/-- `generate_trajectory`, trajectory_simulator.cpp:23-69. -/
def generateTrajectory (config : SimLimits) (start : SimState) (step_time : ℝ) (goal_direction : V3 ℝ)
    (simulation_duration : ℝ) : Option (List SimState) :=
  let num_steps := ⌈simulation_duration / step_time⌉
  if num_steps < 0 then none
  else if num_steps = 0 then some []
  else
    let v := desiredVelocity config goal_direction
    if v.norm = 0 ∨ config.max_jerk_norm < 0 then none
    else
      let P := pConstant config v
      some (simLoop config step_time P (2 * Real.sqrt P) v num_steps.toNat start)

end
end Avoidance
