import Verif.Messages
import Mathlib.Tactic.Ring
import Mathlib.Algebra.Order.Ring.Rat

/-!
# C16 – the messages sent to the flight controller
-/

namespace Avoidance

/-! ## Specification: how the flight controller reads a message -/

/-- The five points of a trajectory message. -/
def Trajectory.points {K : Type*} (t : Trajectory K) : List (PositionTarget K) :=
  [t.point_1, t.point_2, t.point_3, t.point_4, t.point_5]

/-- The points the receiver uses: those whose `point_valid` flag is set. -/
def Trajectory.validPoints {K : Type*} (t : Trajectory K) : List (PositionTarget K) :=
  ((t.points.zip t.point_valid).filter (·.2)).map (·.1)

/-- Every number of the point is NaN. -/
def PositionTarget.AllNaN {K : Type*} (p : PositionTarget K) : Prop :=
  p.position = ⟨.nan, .nan, .nan⟩ ∧ p.velocity = ⟨.nan, .nan, .nan⟩ ∧
  p.accel = ⟨.nan, .nan, .nan⟩ ∧ p.yaw = .nan ∧ p.yaw_rate = .nan

/-- A waypoint sent in ENU decoded back to NED, as position and yaw. -/
noncomputable def decodeNED (p : PositionTarget ℝ) : Option (V3 ℝ × ℝ) :=
  match p.position.x, p.position.y, p.position.z, p.yaw with
  | .fin x, .fin y, .fin z, .fin w => some (toNED ⟨x, y, z⟩, yawToNEDrad w)
  | _, _, _, _ => none

/-- **C16 (waypoint).** Whatever the message object held before, it now carries five points and
five flags; exactly one point is valid: it has the pose's position, the linear velocity, the
yaw and the negated turn rate (a twist rate of `w` reads back as `-w`), no acceleration;
every other point and every time horizon is NaN. -/
theorem C16_waypoint_message {K : Type*} [Field K] (old : Trajectory K)
    (position linear : V3 (Flt K)) (yaw angular_z : Flt K) :
    let m := transformToTrajectory old position linear yaw angular_z
    m.type = 0 ∧ m.point_valid.length = 5 ∧
    m.validPoints = [m.point_1] ∧
    m.point_1.position = position ∧ m.point_1.velocity = linear ∧ m.point_1.yaw = yaw ∧
    (∀ w, angular_z = .fin w → m.point_1.yaw_rate = .fin (-w)) ∧
    (angular_z.isNaN = true ↔ m.point_1.yaw_rate.isNaN = true) ∧
    m.point_1.accel = ⟨.nan, .nan, .nan⟩ ∧
    (∀ p ∈ m.points.tail, p.AllNaN) ∧
    m.time_horizon = List.replicate 5 .nan := by
  refine ⟨rfl, rfl, rfl, rfl, rfl, rfl, ?_, ?_, rfl, ?_, rfl⟩
  · rintro w rfl; rfl
  · cases angular_z <;> simp [transformToTrajectory, Flt.neg, Flt.isNaN]
  · intro p hp
    simp only [Trajectory.points, transformToTrajectory, List.tail_cons, List.mem_cons,
      List.not_mem_nil, or_false] at hp
    rcases hp with rfl | rfl | rfl | rfl <;> exact ⟨rfl, rfl, rfl, rfl, rfl⟩

/-- **C16 (Bezier).** All five points are valid, they decode to the five given control points
in order, the last time horizon is the duration and the others are NaN; the other fields of
each point are those of the message object passed in. -/
theorem C16_bezier_message (old : Trajectory ℝ) (c : Fin 5 → V3 ℝ × ℝ) (duration : ℝ) :
    let m := transformToBezier old c duration
    m.type = 1 ∧ m.validPoints = m.points ∧
    m.points.map decodeNED = [some (c 0), some (c 1), some (c 2), some (c 3), some (c 4)] ∧
    m.time_horizon = List.replicate 4 .nan ++ [.fin duration] ∧
    m.points.map (fun p => (p.velocity, p.accel, p.yaw_rate)) = old.points.map (fun p => (p.velocity, p.accel, p.yaw_rate)) := by
  have key : ∀ (q : PositionTarget ℝ) (d : V3 ℝ × ℝ),
      decodeNED (fillControlPoint q d.1 d.2) = some d := by
    intro q d
    obtain ⟨⟨x, y, z⟩, w⟩ := d
    simp [decodeNED, fillControlPoint, toENU, toNED, yawToENUrad, yawToNEDrad]
  refine ⟨rfl, rfl, ?_, rfl, rfl⟩
  simp [Trajectory.points, transformToBezier, key]

/-- The non-position part of a Bezier point is left as it was: if the message object was not
cleared, stale velocities are sent along (only position and yaw are written). -/
theorem C16_bezier_keeps_stale_fields (old : Trajectory ℝ) (c : Fin 5 → V3 ℝ × ℝ) (d : ℝ)
    (v : V3 (Flt ℝ)) (h : old.point_1.velocity = v) :
    (transformToBezier old c d).point_1.velocity = v := h

example : (transformToTrajectory (K := ℚ)
    ⟨7, ⟨⟨.fin 1, .nan, .nan⟩, ⟨.nan, .nan, .nan⟩, ⟨.nan, .nan, .nan⟩, .nan, .nan⟩,
      ⟨⟨.fin 1, .nan, .nan⟩, ⟨.nan, .nan, .nan⟩, ⟨.nan, .nan, .nan⟩, .nan, .nan⟩,
      ⟨⟨.fin 1, .nan, .nan⟩, ⟨.nan, .nan, .nan⟩, ⟨.nan, .nan, .nan⟩, .nan, .nan⟩,
      ⟨⟨.fin 1, .nan, .nan⟩, ⟨.nan, .nan, .nan⟩, ⟨.nan, .nan, .nan⟩, .nan, .nan⟩,
      ⟨⟨.fin 1, .nan, .nan⟩, ⟨.nan, .nan, .nan⟩, ⟨.nan, .nan, .nan⟩, .nan, .nan⟩, [], []⟩
    ⟨.fin 1, .fin 2, .fin 3⟩ ⟨.nan, .nan, .nan⟩ (.fin 1) (.fin 2)).validPoints.map (·.yaw_rate)
    = [.fin (-2)] := by decide +kernel

end Avoidance
