import Verif.GpBezier
import Verif.CostProps
import Mathlib.Analysis.Calculus.Deriv.Add
import Mathlib.Analysis.Calculus.Deriv.Mul
import Mathlib.Analysis.Calculus.Deriv.Pow
import Mathlib.Tactic.Positivity

/-!
# C61: Bezier smoothing
-/

namespace Avoidance
namespace Global

set_option linter.unusedSectionVars false

section
variable {K : Type*} [Field K] [LinearOrder K] [IsStrictOrderedRing K] {O : Type*}

/-- `q` lies in the triangle `p0 p1 p2`. -/
def InTriangle (p0 p1 p2 q : V3 K) : Prop :=
  ∃ a b c : K, 0 ≤ a ∧ 0 ≤ b ∧ 0 ≤ c ∧ a + b + c = 1 ∧
    q.x = a * p0.x + b * p1.x + c * p2.x ∧ q.y = a * p0.y + b * p1.y + c * p2.y ∧ q.z = a * p0.z + b * p1.z + c * p2.z

/-- **C61**: every point of the curve lies in the triangle of its control points. -/
theorem C61_convex_hull (p0 p1 p2 : V3 K) (t : K) (h0 : 0 ≤ t) (h1 : t ≤ 1) : InTriangle p0 p1 p2 (bezierPoint p0 p1 p2 t) := by
  have h2 : 0 ≤ 1 - t := sub_nonneg.mpr h1
  refine ⟨(1 - t) * (1 - t), 2 * ((1 - t) * t), t * t, by positivity, by positivity, by positivity, by ring, ?_, ?_, ?_⟩ <;>
  · unfold bezierPoint quadraticBezier
    dsimp only
    ring

/-- **C61**: it starts in the first and ends in the last control point. -/
theorem C61_ends (p0 p1 p2 : V3 K) : bezierPoint p0 p1 p2 0 = p0 ∧ bezierPoint p0 p1 p2 1 = p2 := by
  constructor <;>
  · unfold bezierPoint quadraticBezier
    ext <;> dsimp only <;> ring

/-- **C61**: the sampled curve has one point more than steps, starts and ends in the outer control points and stays in the triangle. -/
theorem C61_sampled (p0 p1 p2 : V3 K) (n : ℕ) (hn : 0 < n) :
    ∃ l, threePointBezier p0 p1 p2 n = some l ∧ l.length = n + 1 ∧ l.head? = some p0 ∧ l.getLast? = some p2 ∧ ∀ q ∈ l, InTriangle p0 p1 p2 q := by
  unfold threePointBezier
  rw [if_neg (by omega)]
  have hK : (0 : K) < n := Nat.cast_pos.mpr hn
  refine ⟨_, rfl, by simp, ?_, ?_, ?_⟩
  · rw [List.range_succ_eq_map, List.map_cons, List.head?_cons, Nat.cast_zero, zero_div, (C61_ends p0 p1 p2).1]
  · rw [List.range_succ, List.map_append, List.map_cons, List.map_nil, List.getLast?_append, List.getLast?_singleton, div_self hK.ne',
      (C61_ends p0 p1 p2).2]
    rfl
  · intro q hq
    rw [List.mem_map] at hq
    obtain ⟨i, hi, rfl⟩ := hq
    rw [List.mem_range] at hi
    refine C61_convex_hull p0 p1 p2 _ (by positivity) ?_
    rw [div_le_one hK]
    exact_mod_cast (by omega : i ≤ n)

theorem smoothTurn_spec (o : O) (a b c : V3 K) :
    (smoothTurn o a b c).length = 11 ∧ (smoothTurn o a b c).head? = some ⟨middlePoint a b, o⟩ ∧
    (smoothTurn o a b c).getLast? = some ⟨middlePoint b c, o⟩ ∧
    (∀ q ∈ smoothTurn o a b c, q.orientation = o ∧ InTriangle (middlePoint a b) b (middlePoint b c) q.position) := by
  obtain ⟨l, h1, h2, h3, h4, h5⟩ := C61_sampled (middlePoint a b) b (middlePoint b c) 10 (by norm_num)
  unfold smoothTurn
  rw [h1]
  dsimp only
  refine ⟨by rw [List.length_map, h2], by rw [List.head?_map, h3]; rfl, by rw [List.getLast?_map, h4]; rfl, ?_⟩
  intro q hq
  rw [List.mem_map] at hq
  obtain ⟨p, hp, rfl⟩ := hq
  exact ⟨rfl, h5 p hp⟩

/-- a triangle of midpoints lies in the triangle of the corners -/
theorem inTriangle_middle (a b c q : V3 K) (h : InTriangle (middlePoint a b) b (middlePoint b c) q) : InTriangle a b c q := by
  obtain ⟨α, β, γ, h1, h2, h3, h4, h5, h6, h7⟩ := h
  refine ⟨α / 2, α / 2 + β + γ / 2, γ / 2, by positivity, by positivity, by positivity, by linear_combination h4, ?_, ?_, ?_⟩
  · rw [h5]; unfold middlePoint lerp3 lerp; dsimp only; ring
  · rw [h6]; unfold middlePoint lerp3 lerp; dsimp only; ring
  · rw [h7]; unfold middlePoint lerp3 lerp; dsimp only; ring

theorem smoothTurns_length (o : O) (a b : GPose K O) (l : List (GPose K O)) : (smoothTurns o (a :: b :: l)).length = 11 * l.length := by
  induction l generalizing a b with
  | nil => rfl
  | cons c t ih =>
      unfold smoothTurns
      rw [List.length_append, (smoothTurn_spec o _ _ _).1, ih b c, List.length_cons]
      ring

theorem smoothPath_cons (a b c : GPose K O) (rest : List (GPose K O)) :
    smoothPath (a :: b :: c :: rest) = a :: (smoothTurns a.orientation (a :: b :: c :: rest) ++ [(c :: rest).getLast (by simp)]) := rfl

/-- **C61** (smoothing): a path of `n ≥ 3` poses gives `11 (n - 2) + 2` poses, from the first to the last pose of the path; shorter paths are
left alone. -/
theorem C61_smooth_size (path : List (GPose K O)) :
    (path.length < 3 → smoothPath path = path) ∧
    (3 ≤ path.length → (smoothPath path).length = 11 * (path.length - 2) + 2 ∧ (smoothPath path).head? = path.head? ∧
      (smoothPath path).getLast? = path.getLast?) := by
  match path with
  | [] => exact ⟨fun _ => rfl, fun h => absurd h (by simp)⟩
  | [a] => exact ⟨fun _ => rfl, fun h => absurd h (by simp)⟩
  | [a, b] => exact ⟨fun _ => rfl, fun h => absurd h (by simp)⟩
  | a :: b :: c :: rest =>
      refine ⟨fun h => absurd h (by simp), fun _ => ?_⟩
      rw [smoothPath_cons]
      refine ⟨?_, rfl, ?_⟩
      · simp only [List.length_cons, List.length_append, smoothTurns_length, List.length_nil]
        omega
      · rw [← List.cons_append, List.getLast?_append, List.getLast?_singleton, Option.some_or]
        rw [List.getLast?_cons_cons, List.getLast?_cons_cons, List.getLast?_eq_getLast_of_ne_nil (List.cons_ne_nil c rest)]

/-- the turns of a path, as (corner before, corner, corner after) -/
def corners : List (GPose K O) → List (V3 K × V3 K × V3 K)
  | a :: b :: c :: rest => (a.position, b.position, c.position) :: corners (b :: c :: rest)
  | _ => []

/-- what `corners` lists: exactly the triples of consecutive positions -/
theorem corners_spec (path : List (GPose K O)) (i : ℕ) :
    (corners path)[i]? = (path[i]?).bind fun a => (path[i + 1]?).bind fun b => (path[i + 2]?).map fun c => (a.position, b.position, c.position) := by
  match path with
  | [] => rfl
  | [a] => cases i <;> rfl
  | [a, b] => cases i with
    | zero => rfl
    | succ i => cases i <;> rfl
  | a :: b :: c :: rest =>
      unfold corners
      cases i with
      | zero => rfl
      | succ i =>
          rw [List.getElem?_cons_succ, corners_spec (b :: c :: rest) i]
          rfl

theorem smoothTurns_mem (o : O) (path : List (GPose K O)) (q : GPose K O) (hq : q ∈ smoothTurns o path) :
    q.orientation = o ∧ ∃ c ∈ corners path, InTriangle c.1 c.2.1 c.2.2 q.position := by
  match path with
  | [] => exact absurd hq (by simp [smoothTurns])
  | [a] => exact absurd hq (by simp [smoothTurns])
  | [a, b] => exact absurd hq (by simp [smoothTurns])
  | a :: b :: c :: rest =>
      unfold smoothTurns at hq
      rw [List.mem_append] at hq
      rcases hq with hq | hq
      · obtain ⟨h1, h2⟩ := (smoothTurn_spec o _ _ _).2.2.2 q hq
        exact ⟨h1, _, List.mem_cons_self, inTriangle_middle _ _ _ _ h2⟩
      · obtain ⟨h1, t, h2, h3⟩ := smoothTurns_mem o (b :: c :: rest) q hq
        exact ⟨h1, t, List.mem_cons_of_mem _ h2, h3⟩

/-- **C61** (smoothing): every pose of the smoothed path is the first or the last pose of the path, or lies in the triangle of three
consecutive positions. -/
theorem C61_smooth_hull (path : List (GPose K O)) (hn : 3 ≤ path.length) (q : GPose K O) (hq : q ∈ smoothPath path) :
    some q = path.head? ∨ some q = path.getLast? ∨
    ∃ (i : ℕ) (a b c : GPose K O), path[i]? = some a ∧ path[i + 1]? = some b ∧ path[i + 2]? = some c ∧
      InTriangle a.position b.position c.position q.position := by
  match path with
  | [] => exact absurd hn (by simp)
  | [a] => exact absurd hn (by simp)
  | [a, b] => exact absurd hn (by simp)
  | a :: b :: c :: rest =>
      rw [smoothPath_cons] at hq
      rw [List.mem_cons, List.mem_append, List.mem_singleton] at hq
      rcases hq with hq | hq | hq
      · exact Or.inl (by rw [hq]; rfl)
      · obtain ⟨_, t, ht, h⟩ := smoothTurns_mem _ _ q hq
        obtain ⟨i, hi⟩ := List.mem_iff_getElem?.mp ht
        rw [corners_spec] at hi
        refine Or.inr (Or.inr ⟨i, ?_⟩)
        cases h1 : (a :: b :: c :: rest)[i]? with
        | none => rw [h1] at hi; exact absurd hi (by simp)
        | some x =>
            cases h2 : (a :: b :: c :: rest)[i + 1]? with
            | none => rw [h1, h2] at hi; exact absurd hi (by simp)
            | some y =>
                cases h3 : (a :: b :: c :: rest)[i + 2]? with
                | none => rw [h1, h2, h3] at hi; exact absurd hi (by simp)
                | some z =>
                    rw [h1, h2, h3] at hi
                    have e : (x.position, y.position, z.position) = t := by simpa using hi
                    rw [← e] at h
                    exact ⟨x, y, z, rfl, rfl, rfl, h⟩
      · exact Or.inr (Or.inl (by
          rw [hq, List.getLast?_cons_cons, List.getLast?_cons_cons, List.getLast?_eq_getLast_of_ne_nil (List.cons_ne_nil c rest)]))

/-- **C61** (limit): all inner poses have the orientation of the first pose, whatever the path's own orientations are. -/
theorem C61_smooth_orientation (a b c : GPose K O) (rest : List (GPose K O)) (q : GPose K O)
    (hq : q ∈ (smoothPath (a :: b :: c :: rest)).dropLast) : q.orientation = a.orientation := by
  rw [smoothPath_cons] at hq
  rw [← List.cons_append, List.dropLast_concat, List.mem_cons] at hq
  rcases hq with hq | hq
  · rw [hq]
  · exact (smoothTurns_mem _ _ q hq).1

/-- **C61** (limit): a turn does not pass through its corner: its middle point is half-way between the corner and the middle of the
neighbouring edge midpoints. -/
theorem C61_cuts_corner (p0 p1 p2 : V3 K) : bezierPoint p0 p1 p2 (1 / 2) = middlePoint p1 (middlePoint p0 p2) := by
  unfold bezierPoint quadraticBezier middlePoint lerp3 lerp
  ext <;> dsimp only <;> ring

end

/-! ## Tangents -/

/-- the derivative of one coordinate -/
theorem C61_derivative (p0 p1 p2 t : ℝ) :
    HasDerivAt (quadraticBezier p0 p1 p2) (2 * ((1 - t) * (p1 - p0) + t * (p2 - p1))) t := by
  have e : quadraticBezier p0 p1 p2 = fun s => p0 + s * (2 * (p1 - p0)) + s ^ 2 * (p2 - 2 * p1 + p0) := by
    funext s
    unfold quadraticBezier
    ring
  rw [e]
  have h1 := ((hasDerivAt_id t).mul_const (2 * (p1 - p0))).const_add p0
  have h2 := ((hasDerivAt_id t).pow 2).mul_const (p2 - 2 * p1 + p0)
  refine HasDerivAt.congr_deriv (h1.add h2) ?_
  simp
  ring

/-- **C61** (smoothing): two consecutive turns meet in the middle of their common edge, with the same tangent, which points along the edge:
the smoothed path has no corner there. -/
theorem C61_turns_join (a b c d : V3 ℝ) :
    bezierPoint (middlePoint a b) b (middlePoint b c) 1 = bezierPoint (middlePoint b c) c (middlePoint c d) 0 ∧
    HasDerivAt (quadraticBezier (middlePoint a b).x b.x (middlePoint b c).x) (c.x - b.x) 1 ∧
    HasDerivAt (quadraticBezier (middlePoint b c).x c.x (middlePoint c d).x) (c.x - b.x) 0 ∧
    HasDerivAt (quadraticBezier (middlePoint a b).y b.y (middlePoint b c).y) (c.y - b.y) 1 ∧
    HasDerivAt (quadraticBezier (middlePoint b c).y c.y (middlePoint c d).y) (c.y - b.y) 0 ∧
    HasDerivAt (quadraticBezier (middlePoint a b).z b.z (middlePoint b c).z) (c.z - b.z) 1 ∧
    HasDerivAt (quadraticBezier (middlePoint b c).z c.z (middlePoint c d).z) (c.z - b.z) 0 := by
  refine ⟨by rw [(C61_ends _ _ _).2, (C61_ends _ _ _).1], ?_, ?_, ?_, ?_, ?_, ?_⟩
  all_goals
    unfold middlePoint lerp3 lerp
    dsimp only
  · convert C61_derivative _ _ _ _ using 1; ring
  · convert C61_derivative _ _ _ _ using 1; ring
  · convert C61_derivative _ _ _ _ using 1; ring
  · convert C61_derivative _ _ _ _ using 1; ring
  · convert C61_derivative _ _ _ _ using 1; ring
  · convert C61_derivative _ _ _ _ using 1; ring

/-! ## Accelerations -/

/-- The acceleration of a curve flown in `duration`: the second derivative of `s ↦ curve (s / duration)`. -/
theorem true_acceleration (p0 p1 p2 d s : ℝ) (hd : d ≠ 0) :
    HasDerivAt (fun s => quadraticBezier p0 p1 p2 (s / d)) (2 * ((1 - s / d) * (p1 - p0) + s / d * (p2 - p1)) / d) s ∧
    HasDerivAt (fun s => 2 * ((1 - s / d) * (p1 - p0) + s / d * (p2 - p1)) / d) (2 * (p2 - 2 * p1 + p0) / (d * d)) s := by
  constructor
  · have h := (C61_derivative p0 p1 p2 (s / d)).comp s ((hasDerivAt_id s).div_const d)
    refine HasDerivAt.congr_deriv h ?_
    ring
  · have e : (fun s => 2 * ((1 - s / d) * (p1 - p0) + s / d * (p2 - p1)) / d) = fun s => 2 * (p1 - p0) / d + s * (2 * (p2 - 2 * p1 + p0) / (d * d)) := by
      funext s
      field_simp
      ring
    rw [e]
    have h := ((hasDerivAt_id s).mul_const (2 * (p2 - 2 * p1 + p0) / (d * d))).const_add (2 * (p1 - p0) / d)
    exact HasDerivAt.congr_deriv h (one_mul _)

/-- **C61** (violated): the code's acceleration does not depend on the duration; it is the true acceleration only for a duration of one second (or
a straight uniform curve). -/
theorem C61_acceleration_violated (p0 p1 p2 d : ℝ) (hd : 0 < d) :
    quadraticBezierAcc p0 p1 p2 d = quadraticBezierAcc p0 p1 p2 1 ∧
    (quadraticBezierAcc p0 p1 p2 d = 2 * (p2 - 2 * p1 + p0) / (d * d) ↔ d = 1 ∨ p2 - 2 * p1 + p0 = 0) := by
  have e : quadraticBezierAcc p0 p1 p2 d = 2 * (p2 - 2 * p1 + p0) := by
    unfold quadraticBezierAcc
    field_simp
  refine ⟨by rw [e]; unfold quadraticBezierAcc; ring, ?_⟩
  rw [e, eq_div_iff (by positivity)]
  constructor
  · intro h
    have h2 : (p2 - 2 * p1 + p0) * ((d - 1) * (d + 1)) = 0 := by linear_combination h / 2
    rcases mul_eq_zero.mp h2 with h3 | h3
    · exact Or.inr h3
    · rcases mul_eq_zero.mp h3 with h4 | h4
      · exact Or.inl (by linarith)
      · exact absurd h4 (by linarith)
  · rintro (h | h)
    · rw [h]; ring
    · rw [h]; ring

/-- the same for the magnitude: whatever the duration, it is the magnitude for a duration of one second, twice the length of
`p2 - 2 p1 + p0` -/
theorem C61_acceleration_magnitude_violated (p0 p1 p2 : V3 ℝ) (d : ℝ) (hd : 0 < d) :
    accelerationMagnitude p0 p1 p2 d =
      2 * Real.sqrt ((p2.x - 2 * p1.x + p0.x) ^ 2 + (p2.y - 2 * p1.y + p0.y) ^ 2 + (p2.z - 2 * p1.z + p0.z) ^ 2) := by
  unfold accelerationMagnitude quadraticBezierAcc V3.norm
  rw [div_mul_cancel₀ _ hd.ne']
  have e : ∀ a b c : ℝ, 2 * Real.sqrt (a ^ 2 + b ^ 2 + c ^ 2) = Real.sqrt ((2 * a) ^ 2 + (2 * b) ^ 2 + (2 * c) ^ 2) := by
    intro a b c
    rw [show (2 * a) ^ 2 + (2 * b) ^ 2 + (2 * c) ^ 2 = 2 ^ 2 * (a ^ 2 + b ^ 2 + c ^ 2) by ring, Real.sqrt_mul (by norm_num),
      Real.sqrt_sq (by norm_num)]
  rw [e]
  congr 1
  unfold V3.dot
  ring

/-! ## Straight flight: accelerate, cruise, decelerate -/

/-- Position of a message `s` seconds after its start. -/
noncomputable def BezierMsg.at (m : BezierMsg) (s : ℝ) : V3 ℝ := bezierPoint m.prev m.ctrl m.next (s / m.duration)

/-- `v` is the velocity and `a` the acceleration of the message at time `s`. -/
def BezierMsg.Moves (m : BezierMsg) (vel : ℝ → V3 ℝ) (a : V3 ℝ) : Prop :=
  ∀ s, (HasDerivAt (fun s => (m.at s).x) (vel s).x s ∧ HasDerivAt (fun s => (m.at s).y) (vel s).y s ∧ HasDerivAt (fun s => (m.at s).z) (vel s).z s) ∧
    HasDerivAt (fun s => (vel s).x) a.x s ∧ HasDerivAt (fun s => (vel s).y) a.y s ∧ HasDerivAt (fun s => (vel s).z) a.z s

theorem msg_moves (m : BezierMsg) (hd : m.duration ≠ 0) :
    m.Moves (fun s => ⟨2 * ((1 - s / m.duration) * (m.ctrl.x - m.prev.x) + s / m.duration * (m.next.x - m.ctrl.x)) / m.duration,
        2 * ((1 - s / m.duration) * (m.ctrl.y - m.prev.y) + s / m.duration * (m.next.y - m.ctrl.y)) / m.duration,
        2 * ((1 - s / m.duration) * (m.ctrl.z - m.prev.z) + s / m.duration * (m.next.z - m.ctrl.z)) / m.duration⟩)
      ⟨2 * (m.next.x - 2 * m.ctrl.x + m.prev.x) / (m.duration * m.duration), 2 * (m.next.y - 2 * m.ctrl.y + m.prev.y) / (m.duration * m.duration),
        2 * (m.next.z - 2 * m.ctrl.z + m.prev.z) / (m.duration * m.duration)⟩ := by
  intro s
  exact ⟨⟨(true_acceleration _ _ _ _ s hd).1, (true_acceleration _ _ _ _ s hd).1, (true_acceleration _ _ _ _ s hd).1⟩,
    (true_acceleration _ _ _ _ s hd).2, (true_acceleration _ _ _ _ s hd).2, (true_acceleration _ _ _ _ s hd).2⟩

theorem dist3_nonneg (p q : V3 ℝ) : 0 ≤ dist3 p q := V3.norm_nonneg _

/-- the part of the way flown while accelerating -/
theorem accPart_bounds (start stop : V3 ℝ) (acc maxVel : ℝ) (ha : 0 < acc) (hv : 0 < maxVel) :
    let r := min (1 / 2) (maxVel / acc * maxVel / 2 / dist3 start stop)
    0 ≤ r ∧ r ≤ 1 / 2 ∧ r * dist3 start stop ≤ maxVel / acc * maxVel / 2 := by
  dsimp only
  have h0 := dist3_nonneg start stop
  have h1 : 0 ≤ maxVel / acc * maxVel / 2 := by positivity
  refine ⟨le_min (by norm_num) (div_nonneg h1 h0), min_le_left _ _, ?_⟩
  rcases h0.eq_or_lt with h | h
  · rw [← h, mul_zero]; exact h1
  · calc min (1 / 2) (maxVel / acc * maxVel / 2 / dist3 start stop) * dist3 start stop
        ≤ maxVel / acc * maxVel / 2 / dist3 start stop * dist3 start stop := mul_le_mul_of_nonneg_right (min_le_right _ _) h0
      _ = maxVel / acc * maxVel / 2 := div_mul_cancel₀ _ h.ne'

/-- **C61** (straight flight): the three pieces go from the start to the end without a gap; the vehicle starts and ends at rest, is never faster than the
maximum and never accelerates or decelerates by more than the given amount. -/
theorem C61_two_points (start stop : V3 ℝ) (acc maxVel : ℝ) (ha : 0 < acc) (hv : 0 < maxVel) :
    let m := bezierFromTwoPoints start stop acc maxVel
    m.1.at 0 = start ∧ m.1.at m.1.duration = m.2.1.prev ∧ m.2.1.prev = m.1.next ∧ m.2.1.next = m.2.2.prev ∧ m.2.2.at m.2.2.duration = stop ∧
    (∃ vel a, m.1.Moves vel a ∧ vel 0 = ⟨0, 0, 0⟩ ∧ (∀ s, 0 ≤ s → s ≤ m.1.duration → (vel s).norm ≤ maxVel) ∧ V3.norm a ≤ acc) ∧
    (∃ vel a, m.2.2.Moves vel a ∧ vel m.2.2.duration = ⟨0, 0, 0⟩ ∧ (∀ s, 0 ≤ s → s ≤ m.2.2.duration → (vel s).norm ≤ maxVel) ∧ V3.norm a ≤ acc) ∧
    (m.2.1.prev ≠ m.2.1.next → ∃ vel, m.2.1.Moves vel ⟨0, 0, 0⟩ ∧ ∀ s, (vel s).norm = maxVel) := by
  obtain ⟨hr0, hr1, hr2⟩ := accPart_bounds start stop acc maxVel ha hv
  have hD : 0 < maxVel / acc := by positivity
  unfold bezierFromTwoPoints
  dsimp only
  generalize hr : min (1 / 2) (maxVel / acc * maxVel / 2 / dist3 start stop) = r at *
  set D := maxVel / acc with hDdef
  have haD : acc * D = maxVel := by rw [hDdef]; field_simp
  have hn0 := dist3_nonneg start stop
  refine ⟨?_, ?_, rfl, rfl, ?_, ?_, ?_, ?_⟩
  · unfold BezierMsg.at; dsimp only; rw [zero_div, (C61_ends _ _ _).1]
  · unfold BezierMsg.at; dsimp only; rw [div_self hD.ne', (C61_ends _ _ _).2]
  · unfold BezierMsg.at; dsimp only; rw [div_self hD.ne', (C61_ends _ _ _).2]
  · refine ⟨_, _, msg_moves _ (by exact hD.ne'), ?_, ?_, ?_⟩
    · unfold lerp3 lerp; ext <;> dsimp only <;> ring
    · intro s hs0 hs1
      dsimp only at hs1 ⊢
      have e : (⟨2 * ((1 - s / D) * (start.x - start.x) + s / D * ((lerp3 start stop r).x - start.x)) / D,
          2 * ((1 - s / D) * (start.y - start.y) + s / D * ((lerp3 start stop r).y - start.y)) / D,
          2 * ((1 - s / D) * (start.z - start.z) + s / D * ((lerp3 start stop r).z - start.z)) / D⟩ : V3 ℝ) =
          V3.smul (2 * (s / D) * r / D) (stop.minus start) := by
        unfold lerp3 lerp V3.smul V3.minus
        ext <;> dsimp only <;> ring
      rw [e, V3.norm_smul, abs_of_nonneg (by positivity)]
      have hsD : s / D ≤ 1 := (div_le_one hD).mpr hs1
      have h1 : 2 * (s / D) * r / D * (stop.minus start).norm = (s / D) * (2 * (r * dist3 start stop) / D) := by unfold dist3; ring
      rw [h1]
      have h2 : 2 * (r * dist3 start stop) / D ≤ maxVel := by
        rw [div_le_iff₀ hD]
        linarith
      have h3 : 0 ≤ 2 * (r * dist3 start stop) / D := by positivity
      calc s / D * (2 * (r * dist3 start stop) / D) ≤ 1 * (2 * (r * dist3 start stop) / D) := mul_le_mul_of_nonneg_right hsD h3
        _ ≤ maxVel := by rw [one_mul]; exact h2
    · have e : (⟨2 * ((lerp3 start stop r).x - 2 * start.x + start.x) / (D * D), 2 * ((lerp3 start stop r).y - 2 * start.y + start.y) / (D * D),
          2 * ((lerp3 start stop r).z - 2 * start.z + start.z) / (D * D)⟩ : V3 ℝ) = V3.smul (2 * r / (D * D)) (stop.minus start) := by
        unfold lerp3 lerp V3.smul V3.minus
        ext <;> dsimp only <;> ring
      dsimp only
      rw [e, V3.norm_smul, abs_of_nonneg (by positivity)]
      have h1 : 2 * r / (D * D) * (stop.minus start).norm = 2 * (r * dist3 start stop) / (D * D) := by unfold dist3; ring
      rw [h1, div_le_iff₀ (by positivity)]
      nlinarith
  · refine ⟨_, _, msg_moves _ (by exact hD.ne'), ?_, ?_, ?_⟩
    · dsimp only
      rw [div_self hD.ne']
      ext <;> dsimp only <;> ring
    · intro s hs0 hs1
      dsimp only at hs1 ⊢
      have e : (⟨2 * ((1 - s / D) * (stop.x - (lerp3 stop start r).x) + s / D * (stop.x - stop.x)) / D,
          2 * ((1 - s / D) * (stop.y - (lerp3 stop start r).y) + s / D * (stop.y - stop.y)) / D,
          2 * ((1 - s / D) * (stop.z - (lerp3 stop start r).z) + s / D * (stop.z - stop.z)) / D⟩ : V3 ℝ) =
          V3.smul (2 * (1 - s / D) * r / D) (stop.minus start) := by
        unfold lerp3 lerp V3.smul V3.minus
        ext <;> dsimp only <;> ring
      have hsD : s / D ≤ 1 := (div_le_one hD).mpr hs1
      have hsD0 : 0 ≤ s / D := by positivity
      have h0 : 0 ≤ 1 - s / D := sub_nonneg.mpr hsD
      rw [e, V3.norm_smul, abs_of_nonneg (by positivity)]
      have h1 : 2 * (1 - s / D) * r / D * (stop.minus start).norm = (1 - s / D) * (2 * (r * dist3 start stop) / D) := by unfold dist3; ring
      rw [h1]
      have h2 : 2 * (r * dist3 start stop) / D ≤ maxVel := by
        rw [div_le_iff₀ hD]
        linarith
      have h3 : 0 ≤ 2 * (r * dist3 start stop) / D := by positivity
      calc (1 - s / D) * (2 * (r * dist3 start stop) / D) ≤ 1 * (2 * (r * dist3 start stop) / D) :=
            mul_le_mul_of_nonneg_right (by linarith) h3
        _ ≤ maxVel := by rw [one_mul]; exact h2
    · have e : (⟨2 * (stop.x - 2 * stop.x + (lerp3 stop start r).x) / (D * D), 2 * (stop.y - 2 * stop.y + (lerp3 stop start r).y) / (D * D),
          2 * (stop.z - 2 * stop.z + (lerp3 stop start r).z) / (D * D)⟩ : V3 ℝ) = V3.smul (-(2 * r / (D * D))) (stop.minus start) := by
        unfold lerp3 lerp V3.smul V3.minus
        ext <;> dsimp only <;> ring
      dsimp only
      rw [e, V3.norm_smul, abs_neg, abs_of_nonneg (by positivity)]
      have h1 : 2 * r / (D * D) * (stop.minus start).norm = 2 * (r * dist3 start stop) / (D * D) := by unfold dist3; ring
      rw [h1, div_le_iff₀ (by positivity)]
      nlinarith
  · intro hne
    have hpos : 0 < dist3 (lerp3 start stop r) (lerp3 stop start r) := by
      unfold dist3
      apply V3.norm_pos
      unfold V3.dot V3.minus
      dsimp only
      by_contra hc
      apply hne
      have a1 := mul_self_nonneg ((lerp3 stop start r).x - (lerp3 start stop r).x)
      have a2 := mul_self_nonneg ((lerp3 stop start r).y - (lerp3 start stop r).y)
      have a3 := mul_self_nonneg ((lerp3 stop start r).z - (lerp3 start stop r).z)
      ext
      · nlinarith
      · nlinarith
      · nlinarith
    set E := dist3 (lerp3 start stop r) (lerp3 stop start r) / maxVel with hE
    have hEpos : 0 < E := by positivity
    refine ⟨fun _ => V3.smul (1 / E) ((lerp3 stop start r).minus (lerp3 start stop r)), ?_, ?_⟩
    · have h := msg_moves ⟨lerp3 start stop r, middlePoint start stop, lerp3 stop start r, E⟩ (by exact hEpos.ne')
      intro s
      obtain ⟨⟨h1, h2, h3⟩, h4, h5, h6⟩ := h s
      refine ⟨⟨?_, ?_, ?_⟩, ?_, ?_, ?_⟩
      · convert h1 using 1; unfold V3.smul V3.minus middlePoint lerp3 lerp; dsimp only; field_simp; ring
      · convert h2 using 1; unfold V3.smul V3.minus middlePoint lerp3 lerp; dsimp only; field_simp; ring
      · convert h3 using 1; unfold V3.smul V3.minus middlePoint lerp3 lerp; dsimp only; field_simp; ring
      · exact hasDerivAt_const _ _
      · exact hasDerivAt_const _ _
      · exact hasDerivAt_const _ _
    · intro s
      dsimp only
      rw [V3.norm_smul, abs_of_nonneg (by positivity)]
      have : ((lerp3 stop start r).minus (lerp3 start stop r)).norm = E * maxVel := by
        rw [hE, div_mul_cancel₀ _ hv.ne']
        rfl
      rw [this]
      field_simp

/-- the hypotheses are met, and the three pieces are non-trivial -/
example : (smoothPath [⟨⟨0, 0, 0⟩, 1⟩, ⟨⟨2, 0, 0⟩, 2⟩, (⟨⟨2, 2, 0⟩, 3⟩ : GPose ℚ ℕ)]).length = 13 := by decide +kernel
example : (smoothPath [⟨⟨0, 0, 0⟩, 1⟩, ⟨⟨2, 0, 0⟩, 2⟩, (⟨⟨2, 2, 0⟩, 3⟩ : GPose ℚ ℕ)])[6]? = some ⟨⟨7 / 4, 1 / 4, 0⟩, 1⟩ := by decide +kernel
example : threePointBezier (⟨0, 0, 0⟩ : V3 ℚ) ⟨1, 0, 0⟩ ⟨1, 1, 0⟩ 2 = some [⟨0, 0, 0⟩, ⟨3 / 4, 1 / 4, 0⟩, ⟨1, 1, 0⟩] := by decide +kernel
example : (bezierFromTwoPoints ⟨0, 0, 0⟩ ⟨10, 0, 0⟩ 1 2).2.1.prev ≠ (bezierFromTwoPoints ⟨0, 0, 0⟩ ⟨10, 0, 0⟩ 1 2).2.1.next := by
  have h : dist3 ⟨0, 0, 0⟩ ⟨10, 0, 0⟩ = 10 := by
    unfold dist3 V3.norm V3.dot V3.minus
    dsimp only
    rw [show (10 - 0 : ℝ) * (10 - 0) + (0 - 0) * (0 - 0) + (0 - 0) * (0 - 0) = 10 ^ 2 by norm_num]
    exact Real.sqrt_sq (by norm_num)
  unfold bezierFromTwoPoints
  dsimp only
  rw [h]
  intro hc
  have := congrArg V3.x hc
  unfold lerp3 lerp at this
  norm_num at this

end Global
end Avoidance
