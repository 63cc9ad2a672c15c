import Verif.Polar
import Mathlib.Analysis.SpecialFunctions.Trigonometric.Arctan

/-!
# Asking the local planner about a point (local_planner/src/nodes/local_planner_nodelet.cpp:318-320, 389-404)

Model only.  What is printed is a pair of numbers; `none` is the conversion of NaN to `int`, which is undefined.
-/

namespace Avoidance
noncomputable section

/-- `beta + (ALPHA_RES - beta % ALPHA_RES)`, local_planner_nodelet.cpp:395-396, with `ALPHA_RES = 6` (histogram.h:11): `%` of C++ rounds towards zero. -/
def askEdge (beta : ℤ) : ℤ := beta + (6 - Int.tmod beta 6)

/-- `atan(dz / d)` for `0 ≤ d`: for `d = 0` the quotient is infinite, or NaN if `dz = 0` too. -/
def askAtan (dz d : ℝ) : Option ℝ :=
  if d = 0 then (if 0 < dz then some (Real.pi / 2) else if dz < 0 then some (-(Real.pi / 2)) else none)
  else some (Real.arctan (dz / d))

/-- `clickedPointCallback`, 318-320, and `printPointInfo`, 389-404: elevation and azimuth that are printed for a point, with the position of the vehicle in the planner. -/
def localAsk (position p : V3 ℝ) : Option (ℤ × ℤ) :=
  (askAtan (p.z - position.z) (Real.sqrt ((p.x - position.x) ^ 2 + (p.y - position.y) ^ 2))).map fun e =>
    (askEdge ⌊e * 180 / Real.pi⌋, askEdge ⌊atan2 (p.x - position.x) (p.y - position.y) * 180 / Real.pi⌋)

end
end Avoidance
