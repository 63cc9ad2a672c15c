import Verif.Angles
import Mathlib.Analysis.SpecialFunctions.Complex.Arg
import Mathlib.Analysis.SpecialFunctions.Trigonometric.Inverse

/-!
# Polar, Cartesian and frame conversions of `avoidance/src/common.cpp` and `common.h`

Model only.  `atan2 y x` is `Complex.arg (x + y i)` (both are 0 at the origin and have
range (-π, π]; signed zeros are not modelled).
-/

namespace Avoidance

/-- `struct PolarPoint`, avoidance/include/avoidance/common.h:50-56 (degrees, metres). -/
@[ext] structure PolarPoint (K : Type*) where
  e : K
  z : K
  r : K
deriving DecidableEq, Repr

/-- `Eigen::Vector3f`. -/
@[ext] structure V3 (K : Type*) where
  x : K
  y : K
  z : K
deriving DecidableEq, Repr

section generic
variable {K : Type*} [Field K] [LinearOrder K] [IsStrictOrderedRing K] [FloorRing K]

/-- `wrapPolar`, avoidance/src/common.cpp:197-220. -/
def wrapPolar (p : PolarPoint K) : PolarPoint K :=
  let e := wrap180 p.e
  let z := wrap180 p.z
  let (e, wrapped) :=
    if e > 90 then (180 - e, true)
    else if e < -90 then (-(180 + e), true)
    else (e, false)
  let z := if wrapped then (if z < 0 then z + 180 else z - 180) else z
  ⟨e, z, p.r⟩

/-- `histogramIndexToPolar`, avoidance/src/common.cpp:147-151 (`res / 2` is the integer
division of the non-negative `res`). -/
def histogramIndexToPolar (e z : ℤ) (res : ℕ) (radius : K) : PolarPoint K :=
  ⟨((e * res + res / 2 - 90 : ℤ) : K), ((z * res + res / 2 - 180 : ℤ) : K), radius⟩

/-- `polarToHistogramIndex`, avoidance/src/common.cpp:177-195.  Returns (x, y) =
(azimuth index, elevation index).  `res` is positive. -/
def polarToHistogramIndex (p : PolarPoint K) (res : ℕ) : ℤ × ℤ :=
  let w := wrapPolar p
  let y : ℤ := ⌊w.e / (res : K) + 90 / (res : K)⌋
  let x : ℤ := ⌊w.z / (res : K) + 180 / (res : K)⌋
  let x := if x ≥ (360 / res : ℕ) then ((360 / res : ℕ) : ℤ) - 1 else x
  let x := if x < 0 then 0 else x
  let y := if y ≥ (180 / res : ℕ) then ((180 / res : ℕ) : ℤ) - 1 else y
  let y := if y < 0 then 0 else y
  (x, y)

/-- `toNED`, avoidance/include/avoidance/common.h:477-483. -/
def toNED (v : V3 K) : V3 K := ⟨v.y, v.x, -v.z⟩
/-- `toENU`, avoidance/include/avoidance/common.h:485-491. -/
def toENU (v : V3 K) : V3 K := ⟨v.y, v.x, -v.z⟩
/-- `yawToNEDdeg`, avoidance/include/avoidance/common.h:493. -/
def yawToNEDdeg (yaw_enu : K) : K := 90 - yaw_enu
/-- `yawToENUdeg`, avoidance/include/avoidance/common.h:499. -/
def yawToENUdeg (yaw_ned : K) : K := 90 - yaw_ned
/-- `pitchtoNED`, avoidance/include/avoidance/common.h:497. -/
def pitchToNED (pitch_enu : K) : K := -pitch_enu
/-- `pitchToENU`, avoidance/include/avoidance/common.h:503. -/
def pitchToENU (pitch_ned : K) : K := -pitch_ned

end generic

/-- `Eigen::Quaterniond`. -/
@[ext] structure Quat (K : Type*) where
  w : K
  x : K
  y : K
  z : K
deriving DecidableEq, Repr

/-- Eigen's quaternion product `a * b` (Hamilton convention). -/
def Quat.mul {K : Type*} [Ring K] (a b : Quat K) : Quat K :=
  ⟨a.w * b.w - a.x * b.x - a.y * b.y - a.z * b.z,
   a.w * b.x + a.x * b.w + a.y * b.z - a.z * b.y,
   a.w * b.y + a.y * b.w + a.z * b.x - a.x * b.z,
   a.w * b.z + a.z * b.w + a.x * b.y - a.y * b.x⟩

noncomputable section

/-- `DEG_TO_RAD`, avoidance/include/avoidance/common.h:109. -/
def degToRad : ℝ := Real.pi / 180
/-- `RAD_TO_DEG`, avoidance/include/avoidance/common.h:110. -/
def radToDeg : ℝ := 180 / Real.pi
/-- C's `atan2(y, x)`. -/
def atan2 (y x : ℝ) : ℝ := Complex.arg ⟨x, y⟩

/-- `polarHistogramToCartesian`, avoidance/src/common.cpp:125-132. -/
def polarHistogramToCartesian (p : PolarPoint ℝ) (pos : V3 ℝ) : V3 ℝ :=
  ⟨pos.x + p.r * Real.cos (p.e * degToRad) * Real.sin (p.z * degToRad),
   pos.y + p.r * Real.cos (p.e * degToRad) * Real.cos (p.z * degToRad),
   pos.z + p.r * Real.sin (p.e * degToRad)⟩

/-- `polarFCUToCartesian`, avoidance/src/common.cpp:134-141. -/
def polarFCUToCartesian (p : PolarPoint ℝ) (pos : V3 ℝ) : V3 ℝ :=
  ⟨pos.x + p.r * Real.sin ((90 - p.e) * degToRad) * Real.cos (p.z * degToRad),
   pos.y + p.r * Real.sin ((90 - p.e) * degToRad) * Real.sin (p.z * degToRad),
   pos.z + p.r * Real.cos ((90 - p.e) * degToRad)⟩

/-- `cartesianToPolarHistogram`, avoidance/src/common.cpp:153-163. -/
def cartesianToPolarHistogram (p pos : V3 ℝ) : PolarPoint ℝ :=
  let den := Real.sqrt ((p.x - pos.x) ^ 2 + (p.y - pos.y) ^ 2)
  ⟨atan2 (p.z - pos.z) den * radToDeg,
   atan2 (p.x - pos.x) (p.y - pos.y) * radToDeg,
   Real.sqrt ((p.x - pos.x) * (p.x - pos.x) + (p.y - pos.y) * (p.y - pos.y) +
     (p.z - pos.z) * (p.z - pos.z))⟩

/-- `cartesianToPolarFCU`, avoidance/src/common.cpp:165-171. -/
def cartesianToPolarFCU (pos origin : V3 ℝ) : PolarPoint ℝ :=
  let p := cartesianToPolarHistogram pos origin
  wrapPolar ⟨-p.e, -p.z + 90, p.r⟩

/-- `yawToNEDrad`, avoidance/include/avoidance/common.h:495. -/
def yawToNEDrad (yaw_enu : ℝ) : ℝ := Real.pi / 2 - yaw_enu
/-- `yawToENUrad`, avoidance/include/avoidance/common.h:501. -/
def yawToENUrad (yaw_ned : ℝ) : ℝ := Real.pi / 2 - yaw_ned

/-- `Eigen::AngleAxisd(angle, axis)` converted to a quaternion. -/
def angleAxis (angle : ℝ) (ax ay az : ℝ) : Quat ℝ :=
  ⟨Real.cos (angle / 2), ax * Real.sin (angle / 2), ay * Real.sin (angle / 2),
    az * Real.sin (angle / 2)⟩

/-- `quaternionFromRPY`, avoidance/src/common.cpp:440-444. -/
def quaternionFromRPY (roll pitch yaw : ℝ) : Quat ℝ :=
  ((angleAxis yaw 0 0 1).mul (angleAxis pitch 0 1 0)).mul (angleAxis roll 1 0 0)

/-- `orientationToNED`, avoidance/src/common.cpp:446-453, with the constants
`NED_ENU_RPY` and `AIRCRAFT_BASELINK_RPY` of common.h:508-509. -/
def orientationToNED (q : Quat ℝ) : Quat ℝ :=
  let ned_enu_q := quaternionFromRPY Real.pi 0 (Real.pi / 2)
  let aircraft_baselink_q := quaternionFromRPY Real.pi 0 0
  let result := q.mul aircraft_baselink_q
  ned_enu_q.mul result

/-- `orientationToENU`, avoidance/src/common.cpp:455-462. -/
def orientationToENU (q : Quat ℝ) : Quat ℝ :=
  let ned_enu_q := quaternionFromRPY Real.pi 0 (Real.pi / 2)
  let aircraft_baselink_q := quaternionFromRPY Real.pi 0 0
  let result := ned_enu_q.mul q
  result.mul aircraft_baselink_q

/-- `getYawFromQuaternion`, avoidance/src/common.cpp:237-243. -/
def getYawFromQuaternion (q : Quat ℝ) : ℝ :=
  let siny_cosp := 2 * (q.w * q.z + q.x * q.y)
  let cosy_cosp := 1 - 2 * (q.y * q.y + q.z * q.z)
  atan2 siny_cosp cosy_cosp * radToDeg

/-- `getPitchFromQuaternion`, avoidance/src/common.cpp:245-254. -/
def getPitchFromQuaternion (q : Quat ℝ) : ℝ :=
  let sinp := 2 * (q.w * q.y - q.z * q.x)
  let pitch :=
    if |sinp| ≥ 1 then (if sinp < 0 then -(Real.pi / 2) else Real.pi / 2) else Real.arcsin sinp
  pitch * radToDeg

/-- `nextYaw`, avoidance/src/common.cpp:222-227. -/
def nextYaw (u v : V3 ℝ) : ℝ := atan2 (v.y - u.y) (v.x - u.x)

/-- The orientation built by `createPoseMsg`, avoidance/src/common.cpp:230-235 (roll and pitch
are 0 there). -/
def createPoseOrientation (yaw : ℝ) : Quat ℝ :=
  ((angleAxis 0 1 0 0).mul (angleAxis 0 0 1 0)).mul (angleAxis yaw 0 0 1)

end

end Avoidance
