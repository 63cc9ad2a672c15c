import Verif.PolarProps

/-!
# C62: a pose that faces a point
-/

namespace Avoidance

/-- C62: the yaw from one point to another is in (-π,π] and is the heading of the second seen from the first; no other angle of that range is, unless one is straight above the other. A pose with that
yaw is read back as facing the point. -/
theorem C62_next_yaw_faces (u v : V3 ℝ) :
    (-Real.pi < nextYaw u v ∧ nextYaw u v ≤ Real.pi) ∧
    v.x - u.x = Real.sqrt ((v.x - u.x) ^ 2 + (v.y - u.y) ^ 2) * Real.cos (nextYaw u v) ∧
    v.y - u.y = Real.sqrt ((v.x - u.x) ^ 2 + (v.y - u.y) ^ 2) * Real.sin (nextYaw u v) ∧
    (∀ r yaw : ℝ, 0 < r → -Real.pi < yaw → yaw ≤ Real.pi → v.x - u.x = r * Real.cos yaw → v.y - u.y = r * Real.sin yaw → yaw = nextYaw u v) ∧
    getYawFromQuaternion (createPoseOrientation (nextYaw u v)) = nextYaw u v * radToDeg := by
  have h1 : -Real.pi < nextYaw u v := Complex.neg_pi_lt_arg _
  have h2 : nextYaw u v ≤ Real.pi := Complex.arg_le_pi _
  have hn : ‖(⟨v.x - u.x, v.y - u.y⟩ : ℂ)‖ = Real.sqrt ((v.x - u.x) ^ 2 + (v.y - u.y) ^ 2) := by
    rw [Complex.norm_def, Complex.normSq_mk, pow_two, pow_two]
  refine ⟨⟨h1, h2⟩, ?_, ?_, ?_, C62_pose_yaw_round_trip _ h1 h2⟩
  · rw [← hn]
    exact (Complex.norm_mul_cos_arg (⟨v.x - u.x, v.y - u.y⟩ : ℂ)).symm
  · rw [← hn]
    exact (Complex.norm_mul_sin_arg (⟨v.x - u.x, v.y - u.y⟩ : ℂ)).symm
  · intro r yaw hr y1 y2 ex ey
    unfold nextYaw atan2
    rw [ex, ey, arg_polar hr y1 y2]

/-- A point to the north is faced with a quarter turn. -/
example : nextYaw ⟨0, 0, 1⟩ ⟨0, 3, 5⟩ = Real.pi / 2 :=
  ((C62_next_yaw_faces ⟨0, 0, 1⟩ ⟨0, 3, 5⟩).2.2.2.1 3 (Real.pi / 2) (by norm_num) (by linarith [Real.pi_pos]) (by linarith [Real.pi_pos]) (by simp) (by simp)).symm

end Avoidance
