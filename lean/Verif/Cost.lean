import Verif.Polar
import Verif.Angles
import Mathlib.Analysis.Real.Sqrt

/-!
# `costFunction` (local_planner/src/nodes/planner_functions.cpp:328-363)

Model only, over the real numbers.
-/

namespace Avoidance

/-- `struct costParameters`, local_planner/include/local_planner/cost_parameters.h:5-10. -/
structure CostParams where
  yaw : ℝ
  pitch : ℝ
  velocity : ℝ
  obstacle : ℝ

noncomputable section

/-- `Eigen` dot product. -/
def V3.dot (a b : V3 ℝ) : ℝ := a.x * b.x + a.y * b.y + a.z * b.z
/-- `Eigen` `operator-`. -/
def V3.minus (a b : V3 ℝ) : V3 ℝ := ⟨a.x - b.x, a.y - b.y, a.z - b.z⟩
/-- `Eigen` `operator+`. -/
def V3.plus (a b : V3 ℝ) : V3 ℝ := ⟨a.x + b.x, a.y + b.y, a.z + b.z⟩
/-- `Eigen` scalar multiple. -/
def V3.smul (s : ℝ) (a : V3 ℝ) : V3 ℝ := ⟨s * a.x, s * a.y, s * a.z⟩
/-- `Eigen` `norm()`. -/
def V3.norm (a : V3 ℝ) : ℝ := Real.sqrt (a.dot a)
/-- `Eigen` `normalized()`: divides by the norm if that is positive, otherwise returns the vector
unchanged. -/
def V3.normalized (a : V3 ℝ) : V3 ℝ := if 0 < a.dot a then V3.smul (1 / a.norm) a else a

/-- The obstacle term, planner_functions.cpp:359-360. -/
def distanceCost (params : CostParams) (obstacle_distance : ℝ) : ℝ :=
  let d := params.obstacle - obstacle_distance
  if obstacle_distance > 0 then 5000 * (1 + d / Real.sqrt (1 + d * d)) else 0

/-- `costFunction`, planner_functions.cpp:328-363: (distance cost, other costs).  `none` stands for
the division by zero of line 357 when the vehicle is exactly at the goal (an infinite or NaN cost). -/
def costFunction (candidate : PolarPoint ℝ) (obstacle_distance : ℝ) (goal position velocity : V3 ℝ)
    (params : CostParams) (closest_pt : V3 ℝ) (is_obstacle_facing_goal : Bool) : Option (ℝ × ℝ) :=
  let facing_goal := cartesianToPolarHistogram goal position
  let goal_distance := (goal.minus position).norm
  let candidate_velocity_cartesian := polarHistogramToCartesian candidate ⟨0, 0, 0⟩
  let angle_diff := angleDifference candidate.z facing_goal.z
  let facing_line := cartesianToPolarHistogram closest_pt position
  let angle_diff_to_line := angleDifference candidate.z facing_line.z
  let velocity_cost :=
    params.velocity * (velocity.norm - candidate_velocity_cartesian.normalized.dot velocity)
  let weight : ℝ := if !is_obstacle_facing_goal then 1 / 2 else 0
  let yaw_cost := (1 - weight) * params.yaw * angle_diff * angle_diff
  let yaw_to_line_cost := weight * params.yaw * angle_diff_to_line * angle_diff_to_line
  let pitch_cost := params.pitch * (candidate.e - facing_goal.e) * (candidate.e - facing_goal.e)
  let result := fun pitch_cost => (distanceCost params obstacle_distance,
    velocity_cost + yaw_cost + yaw_to_line_cost + pitch_cost)
  if goal_distance < 5 then
    if goal_distance = 0 then none
    else some (result (pitch_cost / ((1 / 5 * goal_distance) * (1 / 5 * goal_distance))))
  else some (result pitch_cost)

end
end Avoidance
