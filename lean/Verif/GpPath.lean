import Verif.GpBezier
import Verif.HistGen

/-!
# Model: paths of the global planner (global_planner/include/global_planner/common_ros.h 76-147, bezier.h 38-56, 107-111;
global_planner/src/nodes/global_planner_node.cpp 205-218, 345-350)

`none` is an access outside a vector. Headers and frames are left out.
-/

namespace Avoidance
namespace Global

/-- What `positionCallback` keeps of the flight, global_planner_node.cpp:205-218: number of messages, recorded poses, published paths.
(`num_pos_msg_` is an `int`; it would overflow after 2^31 messages.) -/
structure Recorder (P : Type*) where
  num_pos_msg : ℕ := 0
  actual_path : List P := []
  published : List (List P) := []

/-- The recording part of `positionCallback`, global_planner_node.cpp:211-217. -/
def Recorder.position {P : Type*} (r : Recorder P) (pose : P) : Recorder P :=
  let r' := { r with num_pos_msg := r.num_pos_msg + 1 }
  if r.num_pos_msg % 10 = 0 then
    { r' with actual_path := r.actual_path ++ [pose], published := r.published ++ [r.actual_path ++ [pose]] }
  else r'

section
variable {K O : Type*} [Field K] [LinearOrder K]

/-- The condition of `filterPathCorners`, common_ros.h:100-106: the step to the next point is the step from the last point. -/
def sameStep (last curr next : V3 K) : Bool :=
  decide (next.x - curr.x = curr.x - last.x) && decide (next.y - curr.y = curr.y - last.y) && decide (next.z - curr.z = curr.z - last.z)

/-- `filterPathCorners`, common_ros.h:90-112. -/
def filterPathCorners (msg : List (GPose K O)) : Option (List (GPose K O)) :=
  match msg.head?, msg.getLast? with
  | some front, some back =>
    (loopM (fun (corners : List (GPose K O)) i =>
      (msg[i - 1]?).bind fun last => (msg[i]?).bind fun curr => (msg[i + 1]?).map fun next =>
        if !sameStep last.position curr.position next.position then corners ++ [curr] else corners) [front]
      (List.range' 1 (msg.length - 1 - 1))).map fun corners => corners ++ [back]
  | _, _ => some []

variable [IsStrictOrderedRing K]

/-- `threePointBezier` on paths, bezier.h:38-56: `none` for no steps (NaN points). -/
def threePointBezierPath (path : List (GPose K O)) (numSteps : ℕ) : Option (List (GPose K O)) :=
  match path with
  | [a, b, c] => (threePointBezier a.position b.position c.position numSteps).map fun l => l.map fun p => ⟨p, a.orientation⟩
  | _ => some path

/-- The three coordinates of one step. -/
def kineticTerm (u v : K) : K := |v * v - u * u|

/-- `pathKineticEnergy`, common_ros.h:114-134. -/
def pathKineticEnergy (path : List (V3 K)) : Option K :=
  if path.length < 3 then some 0
  else
    (loopM (fun (vel : List (V3 K)) i => (path[i]?).bind fun q => (path[i - 1]?).map fun p => vel ++ [⟨q.x - p.x, q.y - p.y, q.z - p.z⟩]) []
      (List.range' 1 (path.length - 1))).bind fun vel =>
    loopM (fun (total : K) i => (vel[i]?).bind fun v => (vel[i - 1]?).map fun u =>
      total + kineticTerm u.x v.x + kineticTerm u.y v.y + kineticTerm u.z v.z) 0 (List.range' 1 (vel.length - 1))

end

noncomputable section

/-- `pathLength`, common_ros.h:81-87. -/
def pathLength (path : List (V3 ℝ)) : Option ℝ :=
  loopM (fun (total : ℝ) i => (path[i - 1]?).bind fun p => (path[i]?).map fun q => total + dist3 p q) 0 (List.range' 1 (path.length - 1))

/-- `pathEnergy`, common_ros.h:136-144. -/
def pathEnergy (path : List (V3 ℝ)) (up_penalty : ℝ) : Option ℝ :=
  loopM (fun (total : ℝ) i => (path[i - 1]?).bind fun p => (path[i]?).map fun q =>
    total + dist3 p q + max 0 (up_penalty * (q.z - p.z))) 0 (List.range' 1 (path.length - 1))

/-- `getDuration`, bezier.h:107-111. -/
def getDuration (p0 p1 : V3 ℝ) (acc : ℝ) : ℝ := Real.sqrt (2 * dist3 p0 p1 / acc)

end

end Global
end Avoidance
