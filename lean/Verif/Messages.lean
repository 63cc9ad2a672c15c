import Verif.Cloud

/-!
# Trajectory messages of `avoidance/src/common.cpp:281-338`

Model only.
-/

namespace Avoidance

/-- The fields of `mavros_msgs::PositionTarget` that the code writes. -/
structure PositionTarget (K : Type*) where
  position : V3 (Flt K)
  velocity : V3 (Flt K)
  accel : V3 (Flt K)
  yaw : Flt K
  yaw_rate : Flt K
deriving DecidableEq

/-- The fields of `mavros_msgs::Trajectory` that the code writes (header not modelled). -/
structure Trajectory (K : Type*) where
  type : ℕ
  point_1 : PositionTarget K
  point_2 : PositionTarget K
  point_3 : PositionTarget K
  point_4 : PositionTarget K
  point_5 : PositionTarget K
  time_horizon : List (Flt K)
  point_valid : List Bool
deriving DecidableEq

/-- `fillUnusedTrajectoryPoint`, avoidance/src/common.cpp:326-338. -/
def fillUnusedTrajectoryPoint {K : Type*} (point : PositionTarget K) : PositionTarget K :=
  { point with
    position := ⟨.nan, .nan, .nan⟩
    velocity := ⟨.nan, .nan, .nan⟩
    accel := ⟨.nan, .nan, .nan⟩
    yaw := .nan
    yaw_rate := .nan }

/-- Unary minus of a float. -/
def Flt.neg {K : Type*} [Neg K] : Flt K → Flt K
  | .fin x => .fin (-x)
  | .nan => .nan
  | .inf p => .inf (!p)

/-- `transformToTrajectory`, avoidance/src/common.cpp:281-305.  `yaw` stands for
`tf::getYaw(pose.pose.orientation)`, `angular_z` for `vel.angular.z`. -/
def transformToTrajectory {K : Type*} [Neg K] (old : Trajectory K)
    (position linear : V3 (Flt K)) (yaw angular_z : Flt K) : Trajectory K :=
  { type := 0
    point_1 :=
      { position := position, velocity := linear, accel := ⟨.nan, .nan, .nan⟩, yaw := yaw,
        yaw_rate := angular_z.neg }
    point_2 := fillUnusedTrajectoryPoint old.point_2
    point_3 := fillUnusedTrajectoryPoint old.point_3
    point_4 := fillUnusedTrajectoryPoint old.point_4
    point_5 := fillUnusedTrajectoryPoint old.point_5
    time_horizon := [.nan, .nan, .nan, .nan, .nan]
    point_valid := [true, false, false, false, false] }

noncomputable section

/-- `fillControlPoint`, avoidance/src/common.cpp:320-324.  A control point is a NED position
and a NED yaw; only position and yaw of the message are written. -/
def fillControlPoint (point_out : PositionTarget ℝ) (p : V3 ℝ) (yaw : ℝ) : PositionTarget ℝ :=
  { point_out with
    position := ⟨.fin (toENU p).x, .fin (toENU p).y, .fin (toENU p).z⟩
    yaw := .fin (yawToENUrad yaw) }

/-- `transformToBezier`, avoidance/src/common.cpp:307-318. -/
def transformToBezier (old : Trajectory ℝ) (c : Fin 5 → V3 ℝ × ℝ) (duration : ℝ) :
    Trajectory ℝ :=
  { type := 1
    point_1 := fillControlPoint old.point_1 (c 0).1 (c 0).2
    point_2 := fillControlPoint old.point_2 (c 1).1 (c 1).2
    point_3 := fillControlPoint old.point_3 (c 2).1 (c 2).2
    point_4 := fillControlPoint old.point_4 (c 3).1 (c 3).2
    point_5 := fillControlPoint old.point_5 (c 4).1 (c 4).2
    time_horizon := [.nan, .nan, .nan, .nan, .fin duration]
    point_valid := [true, true, true, true, true] }

end
end Avoidance
