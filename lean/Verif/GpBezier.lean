import Verif.Cost

/-!
# Model: Bezier curves (global_planner/include/global_planner/bezier.h, common.h 18, 46-61, 90-93; search_tools.h 40-67)
-/

namespace Avoidance
namespace Global

section
variable {K : Type*} [Field K] [LinearOrder K] [IsStrictOrderedRing K]

/-- `interpolate` on numbers, global_planner/include/global_planner/common.h 18. -/
def lerp (start stop ratio : K) : K := start + (stop - start) * ratio

/-- `interpolate` on points, global_planner/include/global_planner/common.h 48-55. -/
def lerp3 (p q : V3 K) (ratio : K) : V3 K := ⟨lerp p.x q.x ratio, lerp p.y q.y ratio, lerp p.z q.z ratio⟩

/-- `middlePoint`, global_planner/include/global_planner/common.h 58-61. -/
def middlePoint (p q : V3 K) : V3 K := lerp3 p q (1 / 2)

/-- `quadraticBezier`, bezier.h 11-14. -/
def quadraticBezier (p0 p1 p2 t : K) : K := (1 - t) * (1 - t) * p0 + 2 * ((1 - t) * t * p1) + t * t * p2

/-- The three assignments of bezier.h 29-31. -/
def bezierPoint (p0 p1 p2 : V3 K) (t : K) : V3 K :=
  ⟨quadraticBezier p0.x p1.x p2.x t, quadraticBezier p0.y p1.y p2.y t, quadraticBezier p0.z p1.z p2.z t⟩

/-- `quadraticBezierAcc`, bezier.h 17-20: the division and the multiplication cancel. -/
def quadraticBezierAcc (p0 p1 p2 duration : K) : K := 2 * (p2 - 2 * p1 + p0) / duration * duration

/-- `threePointBezier`, bezier.h 23-36. For `num_steps = 0` the code computes `0 / 0` and gives one point of NaNs: `none`. (A negative
number of steps gives no points; the callers never pass one.) -/
def threePointBezier (p0 p1 p2 : V3 K) (numSteps : ℕ) : Option (List (V3 K)) :=
  if numSteps = 0 then none else some ((List.range (numSteps + 1)).map fun (i : ℕ) => bezierPoint p0 p1 p2 ((i : K) / (numSteps : K)))

/-- A pose: position and orientation. -/
structure GPose (K O : Type*) where
  position : V3 K
  orientation : O
deriving DecidableEq

variable {O : Type*}

/-- One turn of `smoothPath`, search_tools.h 50-63: eleven points, all with the orientation of the first pose of the path. -/
def smoothTurn (o : O) (a b c : V3 K) : List (GPose K O) :=
  match threePointBezier (middlePoint a b) b (middlePoint b c) 10 with
  | none => []
  | some l => l.map fun p => ⟨p, o⟩

/-- The loop of `smoothPath`, search_tools.h 50-64. -/
def smoothTurns (o : O) : List (GPose K O) → List (GPose K O)
  | a :: b :: c :: rest => smoothTurn o a.position b.position c.position ++ smoothTurns o (b :: c :: rest)
  | _ => []

/-- `smoothPath`, search_tools.h 40-67. -/
def smoothPath (path : List (GPose K O)) : List (GPose K O) :=
  match path with
  | a :: b :: c :: rest => a :: (smoothTurns a.orientation path ++ [(c :: rest).getLast (by simp)])
  | _ => path

end

noncomputable section

/-- `distance`, global_planner/include/global_planner/common.h 90-93. -/
def dist3 (p q : V3 ℝ) : ℝ := (q.minus p).norm

/-- `getAccelerationMagnitude`, bezier.h 113-119. (The inner calls use the default duration 1.) -/
def accelerationMagnitude (p0 p1 p2 : V3 ℝ) (duration : ℝ) : ℝ :=
  V3.norm ⟨quadraticBezierAcc p0.x p1.x p2.x 1, quadraticBezierAcc p0.y p1.y p2.y 1, quadraticBezierAcc p0.z p1.z p2.z 1⟩ / duration * duration

/-- A `BezierMsg` as `fillBezierMsg` fills it, bezier.h 57-63. -/
structure BezierMsg where
  prev : V3 ℝ
  ctrl : V3 ℝ
  next : V3 ℝ
  duration : ℝ

/-- `bezierFromTwoPoints`, bezier.h 69-92 (no caller). For equal points the code divides by zero, but every choice of `acc_part` then gives
the same points. -/
def bezierFromTwoPoints (start stop : V3 ℝ) (acc maxVel : ℝ) : BezierMsg × BezierMsg × BezierMsg :=
  let accDuration := maxVel / acc
  let accDist := accDuration * maxVel / 2
  let accPart := min (1 / 2) (accDist / dist3 start stop)
  let a := lerp3 start stop accPart
  let d := lerp3 stop start accPart
  (⟨start, start, a, accDuration⟩, ⟨a, middlePoint start stop, d, dist3 a d / maxVel⟩, ⟨d, stop, stop, accDuration⟩)

end

end Global
end Avoidance
