import Verif.GpFollowProps

/-!
# Following a path: the exact laws of goals (C78) and speeds (C77)
-/

namespace Avoidance
namespace Global

set_option linter.unusedSectionVars false

/-- **C78, exact law.** On every position message the position is stored; if there is a next pose, the vehicle is closer to the current goal
than its speed and does not face exactly backwards, the next pose becomes the goal and the goal the last goal; otherwise goal, last
goal and the rest of the path stay. The speed never changes here. -/
theorem C78_law (st : FollowSt) (p : GPose ℝ ℝ) :
    (followPosition st p).here = p ∧ (followPosition st p).speed = st.speed ∧
    (∀ next rest, st.path = next :: rest → dist3 st.goal.position p.position < st.speed →
      (¬ ∃ k : ℤ, |p.orientation - st.goal.orientation| = Real.pi + k * (2 * Real.pi)) →
        (followPosition st p).goal = next ∧ (followPosition st p).lastGoal = st.goal ∧ (followPosition st p).path = rest) ∧
    ((st.path = [] ∨ ¬ dist3 st.goal.position p.position < st.speed ∨
      ∃ k : ℤ, |p.orientation - st.goal.orientation| = Real.pi + k * (2 * Real.pi)) →
        (followPosition st p).goal = st.goal ∧ (followPosition st p).lastGoal = st.lastGoal ∧ (followPosition st p).path = st.path) := by
  have hf : ¬ facing st.goal.orientation p.orientation ↔ ∃ k : ℤ, |p.orientation - st.goal.orientation| = Real.pi + k * (2 * Real.pi) :=
    C78_yaw_check_violated _ _
  rcases hp : st.path with _ | ⟨next, rest⟩
  · have e : followPosition st p = { st with here := p } := by
      unfold followPosition
      dsimp only
      rw [hp]
    rw [e]
    refine ⟨rfl, rfl, ?_, fun _ => ⟨rfl, rfl, hp⟩⟩
    intro a b h
    exact absurd h (by simp)
  · by_cases hc : closeToGoal { st with here := p } ∧ facing st.goal.orientation p.orientation
    · have e : followPosition st p = { st with here := p, lastGoal := st.goal, goal := next, path := rest } := by
        unfold followPosition
        dsimp only
        rw [hp]
        dsimp only
        rw [hp] at hc
        rw [if_pos hc]
      rw [e]
      refine ⟨rfl, rfl, ?_, ?_⟩
      · intro a b h _ _
        obtain ⟨rfl, rfl⟩ := List.cons.inj h
        exact ⟨rfl, rfl, rfl⟩
      · rintro (h | h | h)
        · exact absurd h (by simp)
        · exact absurd hc.1 h
        · exact absurd hc.2 (hf.mpr h)
    · have e : followPosition st p = { st with here := p } := by
        unfold followPosition
        dsimp only
        rw [hp]
        dsimp only
        rw [hp] at hc
        rw [if_neg hc]
      rw [e]
      refine ⟨rfl, rfl, ?_, fun _ => ⟨rfl, rfl, hp⟩⟩
      intro a b _ h1 h2
      exact absurd ⟨h1, by by_contra h; exact h2 (hf.mp h)⟩ hc

/-- **C77, exact speed.** With the speed-up heuristics off the vehicle is always commanded the default speed. With them on it is the default
speed from the risk threshold on, and below it the default speed plus the fraction `1 - √risk` of the difference to the maximum speed.
The commanded speed is stored with each setpoint, and is the one used for the test of closeness. -/
theorem C77_speed_law (C : SpeedCfg) (risk : ℝ) (hr : 0 ≤ risk) :
    (C.speedupHeuristics = false → commandedSpeed C risk = some C.defaultSpeed) ∧
    (C.speedupHeuristics = true → C.threshold ≤ Real.sqrt risk → commandedSpeed C risk = some C.defaultSpeed) ∧
    (C.speedupHeuristics = true → Real.sqrt risk < C.threshold →
      commandedSpeed C risk = some (C.defaultSpeed + (C.maxSpeed - C.defaultSpeed) * (1 - Real.sqrt risk))) ∧
    (∀ st st' q, publishSetpoint C st risk = some (st', q) → commandedSpeed C risk = some st'.speed ∧ st'.here = st.here ∧
      st'.lastGoal = st.lastGoal) := by
  refine ⟨?_, ?_, ?_, ?_⟩
  · intro h
    unfold commandedSpeed
    rw [if_neg (by simp [h])]
  · intro h ht
    unfold commandedSpeed
    rw [if_pos h, if_neg (not_lt.mpr hr), if_pos ht]
  · intro h ht
    unfold commandedSpeed
    rw [if_pos h, if_neg (not_lt.mpr hr), if_neg (not_le.mpr ht)]
  · intro st st' q h
    unfold publishSetpoint at h
    cases hv : commandedSpeed C risk with
    | none => rw [hv] at h; cases h
    | some v =>
      rw [hv] at h
      dsimp only at h
      rw [Option.map_eq_some_iff] at h
      obtain ⟨p, _, e⟩ := h
      obtain ⟨e1, e2⟩ := Prod.mk.inj e
      rw [← e1]
      exact ⟨rfl, rfl, rfl⟩

/-- The law is not void: at the goal, with the goal's heading, the next pose becomes the goal. -/
example (a b : GPose ℝ ℝ) : (followPosition ⟨a, a, [b], a, 1⟩ a).goal = b := by
  refine ((C78_law ⟨a, a, [b], a, 1⟩ a).2.2.1 b [] rfl ?_ ?_).1
  · show dist3 a.position a.position < 1
    unfold dist3 V3.norm V3.minus
    simp [V3.dot]
  · rintro ⟨k, hk⟩
    have hk' : |a.orientation - a.orientation| = Real.pi + k * (2 * Real.pi) := hk
    rw [sub_self, abs_zero] at hk'
    have hp := Real.pi_pos
    have h2 : (1 + 2 * (k : ℝ)) * Real.pi = 0 := by linarith
    rcases mul_eq_zero.mp h2 with h | h
    · have : (1 + 2 * k : ℤ) = 0 := by exact_mod_cast h
      omega
    · linarith

example : commandedSpeed ⟨1 / 2, 1, 3, true, true⟩ 0 = some (1 + (3 - 1) * (1 - Real.sqrt 0)) :=
  (C77_speed_law ⟨1 / 2, 1, 3, true, true⟩ 0 le_rfl).2.2.1 rfl (by rw [Real.sqrt_zero]; norm_num)

end Global
end Avoidance
