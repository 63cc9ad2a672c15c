import Verif.CostMatrix
import Verif.Fov
import Verif.Cloud

/-!
# Parts of `LocalPlanner` (local_planner/src/nodes/local_planner.cpp) and
`getSetpointFromPath` (local_planner/src/nodes/planner_functions.cpp:365-390)

Model only, over the real numbers.
-/

namespace Avoidance
noncomputable section

/-! ## getSetpointFromPath -/

/-- `base + (distance / segment.norm()) * segment`; `none` is NaN (zero-length segment). -/
def pointOnSegment (base : V3 ℝ) (distance : ℝ) (segment : V3 ℝ) : Option (V3 ℝ) :=
  if segment.norm = 0 then none else some (base.plus (V3.smul (distance / segment.norm) segment))

/-- The loop of lines 383-387 and the return value of line 389.  The argument is the loop variable
`i`; the result is (return value, setpoint).  The outer `none` is an out-of-range `path[...]`. -/
def walkPath (path : List (V3 ℝ)) : ℕ → ℝ → V3 ℝ → Option (V3 ℝ) → Option (Bool × Option (V3 ℝ))
  | 0, distance_left, segment, setpoint => some (decide (distance_left < segment.norm), setpoint)
  | i + 1, distance_left, segment, setpoint =>
    if distance_left > segment.norm then
      let distance_left := distance_left - segment.norm
      (path[i]?).bind fun a => (path[i + 1]?).bind fun b =>
        let segment := a.minus b
        walkPath path i distance_left segment (pointOnSegment b distance_left segment)
    else some (decide (distance_left < segment.norm), setpoint)

/-- `getSetpointFromPath`, planner_functions.cpp:365-390, with
`elapsed = (current_time - path_generation_time).toSec()`.  Result: (return value, setpoint), where
setpoint `none` means NaN or not written. -/
def getSetpointFromPath (path : List (V3 ℝ)) (elapsed velocity : ℝ) :
    Option (Bool × Option (V3 ℝ)) :=
  let i := path.length
  if i < 2 then some (false, none)
  else if i = 2 then (path[0]?).map fun p => (true, some p)
  else
    (path[i - 3]?).bind fun a => (path[i - 2]?).bind fun b =>
      let segment := a.minus b
      let distance_left := elapsed * velocity
      walkPath path (i - 3) distance_left segment (pointOnSegment b distance_left segment)

/-! ## Obstacle distance message -/

/-- The ranges of `updateObstacleDistanceMsg(Histogram)`, local_planner.cpp:159-170
(`none` entry = NaN). -/
def obstacleDistanceRanges (hist : Histogram ℝ) (fovs : List (FOV ℝ)) (position : V3 ℝ) (yaw : ℝ)
    (min_range max_range : ℝ) : Option (List (Option ℝ)) :=
  loopM (fun (ranges : List (Option ℝ)) (i : ℕ) =>
      let j := (i + GRID_LENGTH_Z / 2) % GRID_LENGTH_Z
      (hist.getDist 0 j).map fun dist =>
        if histogramIndexYawInsideFOV fovs j position yaw then
          ranges ++ [some (if dist > min_range then dist else max_range + 1 / 100)]
        else ranges ++ [none])
    [] (List.range GRID_LENGTH_Z)

/-! ## Speed limit -/

/-- The relevant PX4 parameters, avoidance/include/avoidance/common.h (ModelParameters). -/
structure SpeedParams where
  acc_hor : ℝ
  jerk_max : ℝ
  xy_cruise : ℝ

/-- `limited_speed`, local_planner.cpp:224-228. -/
def limitedSpeed (p : SpeedParams) (max_sensor_range : ℝ) : ℝ :=
  let accel_ramp_time := p.acc_hor / p.jerk_max
  let a : ℝ := 1
  let b := 2 * p.acc_hor * accel_ramp_time
  let c := 2 * -p.acc_hor * max_sensor_range
  (-b + Real.sqrt (b * b - 4 * a * c)) / (2 * a)

/-- `cruise_velocity` of `getAvoidanceOutput`, local_planner.cpp:216-233. -/
def cruiseVelocity (p : SpeedParams) (max_sensor_range : ℝ) (mission_item_speed : Flt ℝ) : ℝ :=
  let speed := match mission_item_speed with
    | .fin s => s
    | _ => p.xy_cruise
  min speed (limitedSpeed p max_sensor_range)

/-! ## Closest point on the line between the goals -/

/-- `head<2>().norm()`. -/
def V3.normXY (v : V3 ℝ) : ℝ := Real.sqrt (v.x * v.x + v.y * v.y)

/-- `closest_pt_` of `determineStrategy`, local_planner.cpp:123-135. -/
def closestPoint (goal prev_goal position : V3 ℝ) (xy_cruise : ℝ) : V3 ℝ :=
  let d := goal.minus prev_goal
  -- `.head<2>().normalized()` leaves a zero vector unchanged
  let u : ℝ × ℝ := if 0 < d.x * d.x + d.y * d.y then (d.x / d.normXY, d.y / d.normXY) else (d.x, d.y)
  let w := position.minus prev_goal
  let s := u.1 * w.x + u.2 * w.y
  let c : V3 ℝ := ⟨prev_goal.x + u.1 * s, prev_goal.y + u.2 * s, goal.z⟩
  if (position.minus c).normXY < xy_cruise ∨ (goal.minus prev_goal).normXY < 1 / 1000 then goal else c

/-! ## Histogram image -/

/-- One pixel of `generateHistogramImage`, local_planner.cpp:109-111: the value before the conversion
to `uint8_t`. -/
def histogramPixel (dist max_sensor_range : ℝ) : ℝ :=
  let depth_val := if dist > 1 / 100 then 255 - 255 * dist / max_sensor_range else 0
  max 0 (min 255 depth_val)

end

/-! ## What is published when (`determineStrategy`, `create2DObstacleRepresentation`,
`LocalPlannerNodelet::publishLaserScan`) -/

/-- Parts of the planner state that outlive an iteration.  `distanceData` and `path` hold the number
of the planning iteration in which they were computed (`none`: still default-constructed), which
stands for their contents. -/
structure PlannerOutputs where
  distanceData : Option ℕ
  path : Option ℕ
  deriving DecidableEq, Repr

/-- What an iteration of `runPlanner` sees: the parameter `CP_DIST` and whether the histogram built
from the current cloud is empty. -/
structure PlannerInputs (K : Type*) where
  cp_dist : Flt K
  histogramEmpty : Bool

/-- `determineStrategy`, local_planner.cpp:116-148, as far as outputs are concerned: the obstacle
distances are updated only if `param_cp_dist > 0` (lines 121, 94-97), path and path time only if the
histogram is not empty (lines 137-147). -/
def plannerIteration {K : Type*} [LinearOrder K] [Zero K] (now : ℕ) (inp : PlannerInputs K)
    (s : PlannerOutputs) : PlannerOutputs :=
  { distanceData := if (Flt.fin 0).lt inp.cp_dist then some now else s.distanceData
    path := if !inp.histogramEmpty then some now else s.path }

/-- `publishLaserScan`, local_planner_nodelet.cpp:442-453: the published contents, if any.
(`angle_increment > 0` holds exactly if the message was ever filled in.) -/
def publishLaserScan {K : Type*} [LinearOrder K] [Zero K] (cp_dist : Flt K) (s : PlannerOutputs) :
    Option ℕ :=
  if !(cp_dist.lt (Flt.fin 0)) then s.distanceData else none

/-- Iterations `0, 1, ..., n-1` of the planner with the given inputs; the result is the state and what
each iteration published. -/
def plannerRun {K : Type*} [LinearOrder K] [Zero K] (inputs : ℕ → PlannerInputs K) :
    ℕ → PlannerOutputs × List (Option ℕ)
  | 0 => (⟨none, none⟩, [])
  | n + 1 =>
    let (s, out) := plannerRun inputs n
    let s' := plannerIteration n (inputs n) s
    (s', out ++ [publishLaserScan (inputs n).cp_dist s'])

end Avoidance
