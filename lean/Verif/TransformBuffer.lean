import Verif.Polar

/-!
# `avoidance/src/transform_buffer.cpp`

Model only.  Stamps and durations are integer nanoseconds (as `ros::Time`/`ros::Duration`);
rotations are an abstract type `R` with the library's `slerp` as a parameter.  The mutex makes
each call atomic.  `print` (logging) is not modelled.
-/

namespace Avoidance

/-- `tf::StampedTransform`: stamp, origin, rotation. -/
structure Stamped (K R : Type*) where
  stamp : ℤ
  origin : V3 K
  rot : R
deriving DecidableEq, Repr

/-- `TransformBuffer::getKey`, transform_buffer.cpp:11-13. -/
def getKey (source target : String) : String := source ++ "_to_" ++ target

/-- `buffer_`, transform_buffer.h: `unordered_map<string, deque<StampedTransform>>`. -/
abbrev TBuffer (K R : Type*) := String → Option (List (Stamped K R))

section
variable {K R : Type*} [Field K] [LinearOrder K]

/-- `TransformBuffer::interpolateTransform`, transform_buffer.cpp:15-32. -/
def interpolateTransform (slerp : R → R → K → R) (earlier later : Stamped K R) (time : ℤ) :
    Option (Stamped K R) :=
  if time > later.stamp ∨ time < earlier.stamp then none
  else
    let tau : K := ((time - earlier.stamp : ℤ) : K) / ((later.stamp - earlier.stamp : ℤ) : K)
    some ⟨time,
      ⟨earlier.origin.x * (1 - tau) + later.origin.x * tau,
       earlier.origin.y * (1 - tau) + later.origin.y * tau,
       earlier.origin.z * (1 - tau) + later.origin.z * tau⟩,
      slerp earlier.rot later.rot tau⟩

/-- The loop `while (stamp - front().stamp > buffer_size) pop_front()`,
transform_buffer.cpp:49-51; `none`: `front()` of an empty deque (undefined behaviour). -/
def popOld (stamp size : ℤ) : List (Stamped K R) → Option (List (Stamped K R))
  | [] => none
  | a :: l => if stamp - a.stamp > size then popOld stamp size l else some (a :: l)

/-- `TransformBuffer::insertTransform`, transform_buffer.cpp:34-55.  Result: new buffer and
return value; `none` is undefined behaviour. -/
def insertTransform (size : ℤ) (b : TBuffer K R) (source target : String) (t : Stamped K R) :
    Option (TBuffer K R × Bool) :=
  let key := getKey source target
  let dq := (b key).getD []
  let b1 : TBuffer K R := fun k => if k = key then some dq else b k
  if dq.getLast?.all (fun back => back.stamp < t.stamp) then
    match popOld t.stamp size (dq ++ [t]) with
    | none => none
    | some dq' => some (fun k => if k = key then some dq' else b1 k, true)
  else some (b1, false)

/-- The reverse scan of `getTransform`, transform_buffer.cpp:77-93: `prev` is `*previous`, the
list is what is left in reverse order. -/
def scanBack (slerp : R → R → K → R) (time : ℤ) (prev : Stamped K R) :
    List (Stamped K R) → Option (Stamped K R)
  | [] => none
  | it :: rest =>
    if it.stamp ≤ time then interpolateTransform slerp it prev time
    else scanBack slerp time it rest

/-- `TransformBuffer::getTransform`, transform_buffer.cpp:57-96 (`none` = returns false). -/
def getTransform (slerp : R → R → K → R) (b : TBuffer K R) (source target : String) (time : ℤ) :
    Option (Stamped K R) :=
  match b (getKey source target) with
  | none => none
  | some dq =>
    match dq.reverse, dq with
    | back :: rest, front :: _ =>
      if back.stamp < time then none
      else if front.stamp > time then none
      else scanBack slerp time back rest
    | _, _ => none

/-- A call of `insertTransform`. -/
structure Insertion (K R : Type*) where
  source : String
  target : String
  t : Stamped K R

/-- A history of insertions from a fresh `TransformBuffer`. -/
def runInsertions (size : ℤ) : TBuffer K R → List (Insertion K R) → Option (TBuffer K R × List Bool)
  | b, [] => some (b, [])
  | b, i :: is =>
    match insertTransform size b i.source i.target i.t with
    | none => none
    | some (b', r) =>
      match runInsertions size b' is with
      | none => none
      | some (b'', rs) => some (b'', r :: rs)

/-- Fresh buffer (constructor, transform_buffer.cpp:7-9). -/
def emptyBuffer : TBuffer K R := fun _ => none

end
end Avoidance
