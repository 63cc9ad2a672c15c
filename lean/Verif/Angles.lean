import Mathlib.Algebra.Order.Floor.Ring
import Mathlib.Algebra.Order.Field.Basic
import Mathlib.Analysis.SpecialFunctions.Trigonometric.Basic
import Mathlib.Tactic.Linarith
import Mathlib.Tactic.FieldSimp
import Mathlib.Tactic.Ring

/-!
# Angle arithmetic of `avoidance/src/common.cpp`

Model only (no theorems).  Floats are modelled by an arbitrary ordered field `K` with
a floor function (rounding, overflow and NaN are not modelled here).
-/

namespace Avoidance

variable {K : Type*} [Field K] [LinearOrder K] [IsStrictOrderedRing K] [FloorRing K]

/-- `wrapAngleToPlusMinus180`, avoidance/src/common.cpp:258. -/
def wrap180 (angle : K) : K := angle - 360 * (⌊angle / 360 + 1 / 2⌋ : K)

/-- `wrapAngleToPlusMinusPI`, avoidance/src/common.cpp:256.
Simplification: `M_PI_F` (a float literal) is the real number π. -/
noncomputable def wrapPi (angle : ℝ) : ℝ :=
  angle - 2 * Real.pi * (⌊angle / (2 * Real.pi) + 1 / 2⌋ : ℝ)

/-- C's `fmod(x, y)` for finite `x` and `y ≠ 0`: the quotient is truncated towards zero
(used at avoidance/src/common.cpp:261). -/
def fmod (x y : K) : K :=
  x - y * (if 0 ≤ x / y then (⌊x / y⌋ : K) else (⌈x / y⌉ : K))

/-- `angleDifference`, avoidance/src/common.cpp:260-263. -/
def angleDifference (a b : K) : K :=
  let angle := fmod (a - b) 360
  if angle ≥ 0 then
    (if angle < 180 then angle else angle - 360)
  else
    (if angle ≥ -180 then angle else angle + 360)

/-- `indexAngleDifference`, avoidance/src/common.cpp:143-145. -/
def indexAngleDifference (a b : K) : K :=
  min (min |a - b| |a - b - 360|) |a - b + 360|

/-- `getAngularVelocity`, avoidance/src/common.cpp:265-279. -/
noncomputable def getAngularVelocity (desired_yaw curr_yaw : ℝ) : ℝ :=
  let desired_yaw := wrapPi desired_yaw
  let yaw_vel1 := desired_yaw - curr_yaw
  let yaw_vel2 :=
    if yaw_vel1 > 0 then -(2 * Real.pi - yaw_vel1) else 2 * Real.pi + yaw_vel1
  let vel := if |yaw_vel1| ≤ |yaw_vel2| then yaw_vel1 else yaw_vel2
  (1 / 2) * vel

/-- `angleToRange`, global_planner/include/global_planner/common.h:99-105.
Simplification: `M_PI` is the real number π. -/
noncomputable def angleToRange (angle : ℝ) : ℝ :=
  let angle := angle + Real.pi
  let angle := angle - (2 * Real.pi) * (⌊angle / (2 * Real.pi)⌋ : ℝ)
  angle - Real.pi

end Avoidance
