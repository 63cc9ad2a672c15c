import Verif.Polar
import Mathlib.Data.Int.Log
import Mathlib.Data.Rat.Floor

/-!
# The angle helpers with the rounding of floating-point arithmetic

Everywhere else in this model `float` arithmetic is exact.  Here the helpers every direction of the planner goes
through (avoidance/src/common.cpp:100-290) are written once more, operation by operation in the order of the source, with
the four operations left to an arbitrary *arithmetic*, of which the theorems assume only that each result is close to the
exact one.  `binary32` is the arithmetic of the machine: IEEE single precision, round to nearest, ties to even.
Simplification: no overflow and no underflow; unary minus, comparison, `floor`, `fmod` and the conversion of small integers
are exact, as they are in IEEE arithmetic.
-/

namespace Avoidance

section generic
variable {K : Type*} [Field K] [LinearOrder K] [IsStrictOrderedRing K] [FloorRing K]

/-- The four operations of the machine on `float`, whatever they return (used at avoidance/src/common.cpp:100-290). -/
structure Arith (K : Type*) where
  add : K → K → K
  sub : K → K → K
  mul : K → K → K
  div : K → K → K

/-- What the theorems assume of the arithmetic (avoidance/src/common.cpp:100-290 is compiled for IEEE single precision): every
result is within one part in 2²³ of the exact one, or within 2⁻⁴⁰ of it.  Every rounding mode of single precision is, with
or without gradual underflow, and so is every wider format. -/
structure Accurate (A : Arith K) : Prop where
  add : ∀ x y, |A.add x y - (x + y)| ≤ |x + y| / 2 ^ 23 + 1 / 2 ^ 40
  sub : ∀ x y, |A.sub x y - (x - y)| ≤ |x - y| / 2 ^ 23 + 1 / 2 ^ 40
  mul : ∀ x y, |A.mul x y - x * y| ≤ |x * y| / 2 ^ 23 + 1 / 2 ^ 40
  div : ∀ x y, y ≠ 0 → |A.div x y - x / y| ≤ |x / y| / 2 ^ 23 + 1 / 2 ^ 40

/-- `wrapAngleToPlusMinus180`, avoidance/src/common.cpp:258, with rounding. -/
def wrap180R (A : Arith K) (angle : K) : K :=
  A.sub angle (A.mul 360 (⌊A.add (A.div angle 360) (1 / 2)⌋ : K))

/-- `wrapAngleToPlusMinusPI`, avoidance/src/common.cpp:256, with rounding; `pi` is the `float` literal `M_PI_F` of
avoidance/include/avoidance/common.h:104. -/
def wrapPiR (A : Arith K) (pi : K) (angle : K) : K :=
  A.sub angle (A.mul (A.mul 2 pi) (⌊A.add (A.div angle (A.mul 2 pi)) (1 / 2)⌋ : K))

/-- `angleDifference`, avoidance/src/common.cpp:260-263, with rounding. -/
def angleDifferenceR (A : Arith K) (a b : K) : K :=
  let angle := fmod (A.sub a b) 360
  if angle ≥ 0 then
    (if angle < 180 then angle else A.sub angle 360)
  else
    (if angle ≥ -180 then angle else A.add angle 360)

/-- `wrapPolar`, avoidance/src/common.cpp:197-220, with rounding. -/
def wrapPolarR (A : Arith K) (p : PolarPoint K) : PolarPoint K :=
  let e := wrap180R A p.e
  let z := wrap180R A p.z
  let (e, wrapped) :=
    if e > 90 then (A.sub 180 e, true)
    else if e < -90 then (-(A.add 180 e), true)
    else (e, false)
  let z := if wrapped then (if z < 0 then A.add z 180 else A.sub z 180) else z
  ⟨e, z, p.r⟩

/-- `static_cast<int>` of a `float` that is a whole number, avoidance/src/common.cpp:183-186: undefined (`none`) when it is
not a 32-bit integer. -/
def castInt (v : ℤ) : Option ℤ := if -2147483648 ≤ v ∧ v ≤ 2147483647 then some v else none

/-- `polarToHistogramIndex`, avoidance/src/common.cpp:177-195, with rounding: (azimuth index, elevation index), or `none`
when a conversion to `int` is undefined.  `res` is positive. -/
def polarToHistogramIndexR (A : Arith K) (p : PolarPoint K) (res : ℕ) : Option (ℤ × ℤ) :=
  let w := wrapPolarR A p
  (castInt ⌊A.add (A.div w.e (res : K)) (A.div 90 (res : K))⌋).bind fun y =>
  (castInt ⌊A.add (A.div w.z (res : K)) (A.div 180 (res : K))⌋).bind fun x =>
  let x := if x ≥ (360 / res : ℕ) then ((360 / res : ℕ) : ℤ) - 1 else x
  let x := if x < 0 then 0 else x
  let y := if y ≥ (180 / res : ℕ) then ((180 / res : ℕ) : ℤ) - 1 else y
  let y := if y < 0 then 0 else y
  some (x, y)

/-- `getAngularVelocity`, avoidance/src/common.cpp:265-279, with rounding; `pi` is the literal `M_PI_F`. -/
def getAngularVelocityR (A : Arith K) (pi : K) (desired_yaw curr_yaw : K) : K :=
  let desired_yaw := wrapPiR A pi desired_yaw
  let yaw_vel1 := A.sub desired_yaw curr_yaw
  let yaw_vel2 :=
    if yaw_vel1 > 0 then -(A.sub (A.mul 2 pi) yaw_vel1) else A.add (A.mul 2 pi) yaw_vel1
  let vel := if |yaw_vel1| ≤ |yaw_vel2| then yaw_vel1 else yaw_vel2
  (1 / 2) * vel

end generic

/-- Round to the nearest integer, ties to even: the rounding of the significand in IEEE arithmetic
(avoidance/src/common.cpp:100-290 runs with it). -/
def roundEven (x : ℚ) : ℤ :=
  if x - ⌊x⌋ < 1 / 2 then ⌊x⌋
  else if x - ⌊x⌋ > 1 / 2 then ⌊x⌋ + 1
  else if ⌊x⌋ % 2 = 0 then ⌊x⌋ else ⌊x⌋ + 1

/-- The single-precision number nearest to `x`: 24 significant bits (the `float` of avoidance/src/common.cpp:100-290).
Simplification: unbounded exponent. -/
def toFloat (x : ℚ) : ℚ :=
  roundEven (x / 2 ^ (Int.log 2 |x| - 23)) * 2 ^ (Int.log 2 |x| - 23)

/-- The arithmetic of `float`s (avoidance/src/common.cpp:100-290): the exact result, rounded to nearest. -/
def binary32 : Arith ℚ where
  add x y := toFloat (x + y)
  sub x y := toFloat (x - y)
  mul x y := toFloat (x * y)
  div x y := toFloat (x / y)

/-- The arithmetic of every other file of this model (of avoidance/src/common.cpp:100-290 without its rounding). -/
def exactArith (K : Type*) [Field K] : Arith K := ⟨(· + ·), (· - ·), (· * ·), (· / ·)⟩

end Avoidance
