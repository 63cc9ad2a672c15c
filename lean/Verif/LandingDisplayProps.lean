import Verif.LandingDisplay
import Verif.LandingLandProps
import Verif.SlpSpiralProps
import Mathlib.Tactic.Linarith
import Mathlib.Tactic.NormNum

/-!
# C103: what the landing planner shows is what it decided
-/

namespace Avoidance
namespace Landing

noncomputable section

/-! ## Colours -/

/-- **Specification**: one channel of a colour given by hue (in degrees), saturation and value: `v - v s max(0, min(k, 4 - k, 1))` with `k = n + h / 60` modulo 6; red is
`n = 5`, green `n = 3`, blue `n = 1`. -/
def channel (n h s v : ℝ) : ℝ :=
  let k := (n + h / 60) - 6 * (⌊(n + h / 60) / 6⌋ : ℝ)
  v - v * s * max 0 (min k (min (4 - k) 1))

theorem fmod_nonneg {x m : ℝ} (hx : 0 ≤ x) : fmod x m = x - m * (⌊x / m⌋ : ℝ) := by unfold fmod; rw [if_pos hx]

/-- the remainder modulo 6 -/
theorem rem6 (y : ℝ) : 0 ≤ y - 6 * (⌊y / 6⌋ : ℝ) ∧ y - 6 * (⌊y / 6⌋ : ℝ) < 6 := by
  have h1 := Int.floor_le (y / 6)
  have h2 := Int.lt_floor_add_one (y / 6)
  constructor <;> linarith

theorem shifted (n y : ℝ) (hn : 0 ≤ n) (hn6 : n < 6) : (n + y) - 6 * (⌊(n + y) / 6⌋ : ℝ) =
    if n + (y - 6 * (⌊y / 6⌋ : ℝ)) < 6 then n + (y - 6 * (⌊y / 6⌋ : ℝ)) else n + (y - 6 * (⌊y / 6⌋ : ℝ)) - 6 := by
  obtain ⟨h1, h2⟩ := rem6 y
  split
  · rename_i h
    have : ⌊(n + y) / 6⌋ = ⌊y / 6⌋ := by
      rw [Int.floor_eq_iff]
      constructor <;> linarith
    rw [this]
    ring
  · rename_i h
    have : ⌊(n + y) / 6⌋ = ⌊y / 6⌋ + 1 := by
      rw [Int.floor_eq_iff]
      push_cast
      constructor <;> linarith
    rw [this]
    push_cast
    ring

/-- what `channel` subtracts -/
def dip (k : ℝ) : ℝ := max 0 (min k (min (4 - k) 1))

theorem dip_up {k : ℝ} (h0 : 0 ≤ k) (h1 : k ≤ 1) : dip k = k := by
  unfold dip
  rw [min_eq_left (le_min (by linarith) h1), max_eq_right h0]

theorem dip_flat {k : ℝ} (h0 : 1 ≤ k) (h1 : k ≤ 3) : dip k = 1 := by
  unfold dip
  rw [min_eq_right (by linarith : (1 : ℝ) ≤ 4 - k), min_eq_right h0, max_eq_right (by norm_num)]

theorem dip_down {k : ℝ} (h0 : 3 ≤ k) (h1 : k ≤ 4) : dip k = 4 - k := by
  unfold dip
  rw [min_eq_left (by linarith : 4 - k ≤ (1 : ℝ)), min_eq_right (by linarith), max_eq_right (by linarith)]

theorem dip_none {k : ℝ} (h0 : 4 ≤ k) : dip k = 0 := by
  unfold dip
  rw [min_eq_left (by linarith : 4 - k ≤ (1 : ℝ)), min_eq_right (by linarith), max_eq_left (by linarith)]

theorem fmod2 {t : ℝ} (h0 : 0 ≤ t) (q : ℤ) (h1 : (2 : ℝ) * q ≤ t) (h2 : t < 2 * q + 2) : fmod t 2 = t - 2 * q := by
  rw [fmod_nonneg h0]
  have : ⌊t / 2⌋ = q := by
    rw [Int.floor_eq_iff]
    constructor <;> linarith
  rw [this]

/-- **C103**: `HSVtoRGB` is the conversion of hue, saturation and value to red, green and blue. -/
theorem C103_hsv (h s v : ℝ) (hh : 0 ≤ h) : hsvToRgb (some h) s v = ⟨channel 5 h s v, channel 3 h s v, channel 1 h s v⟩ := by
  have hy : 0 ≤ h / 60 := by positivity
  obtain ⟨t0, t6⟩ := rem6 (h / 60)
  have hch : ∀ n, 0 ≤ n → n < 6 → channel n h s v = v - v * s * dip (if n + (h / 60 - 6 * (⌊h / 60 / 6⌋ : ℝ)) < 6 then n + (h / 60 - 6 * (⌊h / 60 / 6⌋ : ℝ)) else
      n + (h / 60 - 6 * (⌊h / 60 / 6⌋ : ℝ)) - 6) := by
    intro n h1 h2
    unfold channel
    dsimp only
    rw [shifted n (h / 60) h1 h2]
    rfl
  rw [hch 5 (by norm_num) (by norm_num), hch 3 (by norm_num) (by norm_num), hch 1 (by norm_num) (by norm_num)]
  unfold hsvToRgb
  dsimp only
  rw [fmod_nonneg hy]
  generalize h / 60 - 6 * (⌊h / 60 / 6⌋ : ℝ) = t at t0 t6
  unfold sector
  rcases lt_or_ge t 1 with g1 | g1
  · rw [if_pos ⟨t0, g1⟩, fmod2 t0 0 (by push_cast; linarith) (by push_cast; linarith), if_pos (by linarith), if_pos (by linarith), if_pos (by linarith),
      dip_none (by linarith), dip_down (by linarith) (by linarith), dip_flat (by linarith) (by linarith), abs_of_nonpos (by push_cast; linarith)]
    ext <;> push_cast <;> ring
  rw [if_neg (by intro h; linarith [h.2])]
  rcases lt_or_ge t 2 with g2 | g2
  · rw [if_pos ⟨g1, g2⟩, fmod2 t0 0 (by push_cast; linarith) (by push_cast; linarith), if_neg (by linarith), if_pos (by linarith), if_pos (by linarith),
      dip_up (by linarith) (by linarith), dip_none (by linarith), dip_flat (by linarith) (by linarith), abs_of_nonneg (by push_cast; linarith)]
    ext <;> push_cast <;> ring
  rw [if_neg (by intro h; linarith [h.2])]
  rcases lt_or_ge t 3 with g3 | g3
  · rw [if_pos ⟨g2, g3⟩, fmod2 t0 1 (by push_cast; linarith) (by push_cast; linarith), if_neg (by linarith), if_pos (by linarith), if_pos (by linarith),
      dip_flat (by linarith) (by linarith), dip_none (by linarith), dip_down (by linarith) (by linarith), abs_of_nonpos (by push_cast; linarith)]
    ext <;> push_cast <;> ring
  rw [if_neg (by intro h; linarith [h.2])]
  rcases lt_or_ge t 4 with g4 | g4
  · rw [if_pos ⟨g3, g4⟩, fmod2 t0 1 (by push_cast; linarith) (by push_cast; linarith), if_neg (by linarith), if_neg (by linarith), if_pos (by linarith),
      dip_flat (by linarith) (by linarith), dip_up (by linarith) (by linarith), dip_none (by linarith), abs_of_nonneg (by push_cast; linarith)]
    ext <;> push_cast <;> ring
  rw [if_neg (by intro h; linarith [h.2])]
  rcases lt_or_ge t 5 with g5 | g5
  · rw [if_pos ⟨g4, g5⟩, fmod2 t0 2 (by push_cast; linarith) (by push_cast; linarith), if_neg (by linarith), if_neg (by linarith), if_pos (by linarith),
      dip_down (by linarith) (by linarith), dip_flat (by linarith) (by linarith), dip_none (by linarith), abs_of_nonpos (by push_cast; linarith)]
    ext <;> push_cast <;> ring
  rw [if_neg (by intro h; linarith [h.2]), if_pos ⟨g5, t6⟩, fmod2 t0 2 (by push_cast; linarith) (by push_cast; linarith), if_neg (by linarith), if_neg (by linarith),
    if_neg (by linarith), dip_none (by linarith), dip_flat (by linarith) (by linarith), dip_up (by linarith) (by linarith), abs_of_nonneg (by push_cast; linarith)]
  ext <;> push_cast <;> ring

/-- 90 degrees: between yellow and green -/
example : hsvToRgb (some 90) 1 1 = ⟨1 / 2, 1, 0⟩ := by
  rw [C103_hsv _ _ _ (by norm_num)]
  have f5 : ⌊((5 : ℝ) + 90 / 60) / 6⌋ = 1 := by rw [Int.floor_eq_iff]; norm_num
  have f3 : ⌊((3 : ℝ) + 90 / 60) / 6⌋ = 0 := by rw [Int.floor_eq_iff]; norm_num
  have f1 : ⌊((1 : ℝ) + 90 / 60) / 6⌋ = 0 := by rw [Int.floor_eq_iff]; norm_num
  unfold channel
  rw [f5, f3, f1]
  norm_num

/-- bright colours, sector by sector -/
theorem bright (h : ℝ) (h0 : 0 ≤ h) (h6 : h < 360) : ∃ t, t = h / 60 ∧
    ((0 ≤ t ∧ t < 1 ∧ hsvToRgb (some h) 1 1 = ⟨1, t, 0⟩) ∨ (1 ≤ t ∧ t < 2 ∧ hsvToRgb (some h) 1 1 = ⟨2 - t, 1, 0⟩) ∨
     (2 ≤ t ∧ t < 3 ∧ hsvToRgb (some h) 1 1 = ⟨0, 1, t - 2⟩) ∨ (3 ≤ t ∧ t < 4 ∧ hsvToRgb (some h) 1 1 = ⟨0, 4 - t, 1⟩) ∨
     (4 ≤ t ∧ t < 5 ∧ hsvToRgb (some h) 1 1 = ⟨t - 4, 0, 1⟩) ∨ (5 ≤ t ∧ t < 6 ∧ hsvToRgb (some h) 1 1 = ⟨1, 0, 6 - t⟩)) := by
  refine ⟨h / 60, rfl, ?_⟩
  have hy : 0 ≤ h / 60 := by positivity
  have hy6 : h / 60 < 6 := by linarith
  have hf : fmod (h / 60) 6 = h / 60 := by
    rw [fmod_nonneg hy]
    have : ⌊h / 60 / 6⌋ = 0 := by
      rw [Int.floor_eq_iff]
      push_cast
      constructor <;> linarith
    rw [this]
    simp
  unfold hsvToRgb
  dsimp only
  rw [hf]
  generalize h / 60 = t at hy hy6
  unfold sector
  rcases lt_or_ge t 1 with g1 | g1
  · left
    refine ⟨hy, g1, ?_⟩
    rw [if_pos ⟨hy, g1⟩, fmod2 hy 0 (by push_cast; linarith) (by push_cast; linarith), abs_of_nonpos (by push_cast; linarith)]
    ext <;> push_cast <;> ring
  right
  rw [if_neg (by intro h; linarith [h.2])]
  rcases lt_or_ge t 2 with g2 | g2
  · left
    refine ⟨g1, g2, ?_⟩
    rw [if_pos ⟨g1, g2⟩, fmod2 hy 0 (by push_cast; linarith) (by push_cast; linarith), abs_of_nonneg (by push_cast; linarith)]
    ext <;> push_cast <;> ring
  right
  rw [if_neg (by intro h; linarith [h.2])]
  rcases lt_or_ge t 3 with g3 | g3
  · left
    refine ⟨g2, g3, ?_⟩
    rw [if_pos ⟨g2, g3⟩, fmod2 hy 1 (by push_cast; linarith) (by push_cast; linarith), abs_of_nonpos (by push_cast; linarith)]
    ext <;> push_cast <;> ring
  right
  rw [if_neg (by intro h; linarith [h.2])]
  rcases lt_or_ge t 4 with g4 | g4
  · left
    refine ⟨g3, g4, ?_⟩
    rw [if_pos ⟨g3, g4⟩, fmod2 hy 1 (by push_cast; linarith) (by push_cast; linarith), abs_of_nonneg (by push_cast; linarith)]
    ext <;> push_cast <;> ring
  right
  rw [if_neg (by intro h; linarith [h.2])]
  rcases lt_or_ge t 5 with g5 | g5
  · left
    refine ⟨g4, g5, ?_⟩
    rw [if_pos ⟨g4, g5⟩, fmod2 hy 2 (by push_cast; linarith) (by push_cast; linarith), abs_of_nonpos (by push_cast; linarith)]
    ext <;> push_cast <;> ring
  right
  refine ⟨g5, hy6, ?_⟩
  rw [if_neg (by intro h; linarith [h.2]), if_pos ⟨g5, hy6⟩, fmod2 hy 2 (by push_cast; linarith) (by push_cast; linarith), abs_of_nonneg (by push_cast; linarith)]
  ext <;> push_cast <;> ring

theorem bright_not_black (h : ℝ) (h0 : 0 ≤ h) (h6 : h < 360) : hsvToRgb (some h) 1 1 ≠ .black := by
  obtain ⟨t, _, g⟩ := bright h h0 h6
  intro e
  rw [e] at g
  unfold Rgb.black at g
  rcases g with ⟨_, _, g⟩ | ⟨_, _, g⟩ | ⟨_, _, g⟩ | ⟨_, _, g⟩ | ⟨_, _, g⟩ | ⟨_, _, g⟩ <;> injection g with g1 g2 g3 <;> linarith

/-- different hues of one turn are different colours -/
theorem bright_inj (a b : ℝ) (ha : 0 ≤ a) (ha' : a < 360) (hb : 0 ≤ b) (hb' : b < 360) (h : hsvToRgb (some a) 1 1 = hsvToRgb (some b) 1 1) : a = b := by
  obtain ⟨t, ht, g⟩ := bright a ha ha'
  obtain ⟨u, hu, k⟩ := bright b hb hb'
  have : t = u := by
    rcases g with ⟨g1, g2, g⟩ | ⟨g1, g2, g⟩ | ⟨g1, g2, g⟩ | ⟨g1, g2, g⟩ | ⟨g1, g2, g⟩ | ⟨g1, g2, g⟩ <;>
    rcases k with ⟨k1, k2, k⟩ | ⟨k1, k2, k⟩ | ⟨k1, k2, k⟩ | ⟨k1, k2, k⟩ | ⟨k1, k2, k⟩ | ⟨k1, k2, k⟩ <;>
    rw [g, k] at h <;> injection h with e1 e2 e3 <;> linarith
  rw [ht, hu] at this
  linarith

theorem bright_turn (h : ℝ) (h0 : 0 ≤ h) (k : ℕ) : hsvToRgb (some (h + 360 * k)) 1 1 = hsvToRgb (some h) 1 1 := by
  have hk : (0 : ℝ) ≤ 360 * k := by positivity
  have e : fmod ((h + 360 * k) / 60) 6 = fmod (h / 60) 6 := by
    rw [fmod_nonneg (by positivity), fmod_nonneg (by positivity)]
    have : (h + 360 * (k : ℝ)) / 60 / 6 = h / 60 / 6 + (k : ℕ) := by ring
    rw [this, Int.floor_add_natCast]
    push_cast
    ring
  unfold hsvToRgb
  dsimp only
  rw [e]

/-- **C103**: in the display of the standard deviations (threshold above 0) a cell is black exactly if its standard deviation is above the threshold - then the landing
planner does not count it as flat; cells below the threshold have the colour of the hue `360 * deviation / threshold`, so that different deviations below the threshold have
different colours. -/
theorem C103_std_dev_partial (thr : ℝ) (hthr : 0 < thr) (var : ℝ) (hv : 0 ≤ var) :
    (stdDevColor thr var = .black ↔ thr < Real.sqrt var) ∧
    (Real.sqrt var ≤ thr → stdDevColor thr var = ⟨channel 5 (360 * (Real.sqrt var / thr)) 1 1, channel 3 (360 * (Real.sqrt var / thr)) 1 1, channel 1 (360 * (Real.sqrt var / thr)) 1 1⟩) ∧
    (∀ var', 0 ≤ var' → Real.sqrt var < thr → Real.sqrt var' < thr → (stdDevColor thr var = stdDevColor thr var' ↔ Real.sqrt var = Real.sqrt var')) := by
  have hc : ∀ v, 0 ≤ v → Real.sqrt v ≤ thr → stdDevColor thr v = hsvToRgb (some (360 * (Real.sqrt v / thr))) 1 1 := by
    intro v h0 h1
    unfold stdDevColor hueOf
    dsimp only
    rw [if_neg (by intro h; linarith [h.2]), if_neg (not_lt.mpr h0), if_neg (by linarith)]
    congr 2
    rw [sub_zero, sub_zero]
    ring
  have hq : ∀ v, 0 ≤ 360 * (Real.sqrt v / thr) := fun v => by positivity
  have hlt : ∀ v, Real.sqrt v < thr → 360 * (Real.sqrt v / thr) < 360 := by
    intro v h
    have : Real.sqrt v / thr < 1 := by rw [div_lt_one hthr]; exact h
    linarith
  refine ⟨?_, ?_, ?_⟩
  · constructor
    · intro h
      by_contra hn
      rw [not_lt] at hn
      rw [hc var hv hn] at h
      rcases lt_or_eq_of_le hn with hn | hn
      · exact bright_not_black _ (hq var) (hlt var hn) h
      · rw [hn, div_self hthr.ne'] at h
        have e := bright_turn 0 (le_refl _) 1
        have : (0 : ℝ) + 360 * ((1 : ℕ) : ℝ) = 360 * 1 := by push_cast; ring
        rw [this] at e
        rw [e] at h
        exact bright_not_black 0 (le_refl _) (by norm_num) h
    · intro h
      unfold stdDevColor
      rw [if_pos ⟨hv, h⟩]
  · intro h
    rw [hc var hv h, C103_hsv _ _ _ (hq var)]
  · intro var' hv' h1 h2
    rw [hc var hv h1.le, hc var' hv' h2.le]
    constructor
    · intro h
      have := bright_inj _ _ (hq var) (hlt var h1) (hq var') (hlt var' h2) h
      have h3 : Real.sqrt var / thr = Real.sqrt var' / thr := by linarith
      rwa [div_left_inj' hthr.ne'] at h3
    · intro h; rw [h]

/-- **C103**: a cell shown in black is not flat for the landing planner. -/
theorem C103_black_not_flat_partial (s : Planner ℝ) (g : Grid ℝ) (i j : ℤ) (hthr : 0 < s.std_dev_thr) (hv : 0 ≤ g.variance i j)
    (h : stdDevColor s.std_dev_thr (g.variance i j) = .black) : cellLand s g i j = 0 := by
  unfold cellLand
  rw [if_pos]
  right
  rw [sqrtGt_iff _ _ hv]
  exact ((C103_std_dev_partial _ hthr _ hv).1).mp h

/-- **C103** (the threshold looks like zero; a threshold of zero makes everything black): the two ends of the scale have the same colour, and with the threshold 0, which is
permitted, cells without any deviation are black although they are flat. -/
theorem C103_std_dev_violated : (∀ thr : ℝ, 0 < thr → stdDevColor thr (thr ^ 2) = stdDevColor thr 0) ∧
    (stdDevColor 0 0 = .black ∧ ∃ (s : Planner ℝ) (g : Grid ℝ), s.std_dev_thr = 0 ∧ g.variance 0 0 = 0 ∧ cellLand s g 0 0 = 1) := by
  constructor
  · intro thr h
    have h1 : Real.sqrt (thr ^ 2) = thr := Real.sqrt_sq h.le
    have e1 : 360 * (thr - 0) / (thr - 0) = 0 + 360 * ((1 : ℕ) : ℝ) := by
      rw [sub_zero, mul_div_assoc, div_self h.ne']
      push_cast
      ring
    have e2 : 360 * ((0 : ℝ) - 0) / (thr - 0) = 0 := by simp
    have a : stdDevColor thr (thr ^ 2) = hsvToRgb (some (360 * (thr - 0) / (thr - 0))) 1 1 := by
      unfold stdDevColor hueOf
      dsimp only
      rw [if_neg (by rw [h1]; intro h'; exact lt_irrefl _ h'.2), if_neg (by nlinarith), if_neg (by linarith), h1]
    have b : stdDevColor thr 0 = hsvToRgb (some (360 * ((0 : ℝ) - 0) / (thr - 0))) 1 1 := by
      unfold stdDevColor hueOf
      dsimp only
      rw [if_neg (by rw [Real.sqrt_zero]; intro h'; linarith [h'.2]), if_neg (lt_irrefl _), if_neg (by linarith), Real.sqrt_zero]
    rw [a, b, e1, e2, bright_turn 0 (le_refl _) 1]
  · constructor
    · unfold stdDevColor hueOf
      dsimp only
      rw [if_neg (by intro h; simp at h), if_neg (lt_irrefl _), if_pos (by norm_num)]
      unfold hsvToRgb Rgb.black
      norm_num
    · refine ⟨{ (plannerInit : Planner ℝ) with std_dev_thr := 0, n_points_thr := 0 }, Grid.new 10 1, rfl, rfl, ?_⟩
      unfold cellLand
      rw [if_neg]
      rintro (h | h)
      · exact absurd h (by simp [Grid.new, Grid.resize, Grid.reset])
      · unfold sqrtGt at h
        have : ((Grid.new 10 1 : Grid ℝ).variance 0 0) = 0 := rfl
        rw [this] at h
        simp at h

/-- **C103**: in the display of the number of points (threshold below 200) a cell is black exactly if it has fewer points than the threshold, and then it does not count as
flat; between the threshold and 400 different numbers have different colours. -/
theorem C103_counter_partial (thr : ℝ) (h0 : 0 ≤ thr) (h200 : thr < 200) (c : ℤ) (hc : 0 ≤ c) :
    (counterColor thr c = .black ↔ (c : ℝ) < thr) ∧
    (∀ c' : ℤ, thr ≤ c → (c : ℝ) < 400 → thr ≤ c' → (c' : ℝ) < 400 → (counterColor thr c = counterColor thr c' ↔ c = c')) := by
  have hd : 0 < 400 - thr := by linarith
  have hcol : ∀ c : ℤ, counterColor thr c = hsvToRgb (some (360 * (((c : ℝ) - thr) / (400 - thr)))) 1 1 := by
    intro c
    unfold counterColor hueOf
    rw [if_neg hd.ne', mul_div_assoc]
  have hnn : ∀ c : ℤ, thr ≤ (c : ℝ) → 0 ≤ 360 * (((c : ℝ) - thr) / (400 - thr)) := fun c h => by
    have : 0 ≤ (c : ℝ) - thr := by linarith
    positivity
  have hlt : ∀ c : ℤ, (c : ℝ) < 400 → 360 * (((c : ℝ) - thr) / (400 - thr)) < 360 := by
    intro c h
    have : ((c : ℝ) - thr) / (400 - thr) < 1 := by rw [div_lt_one hd]; linarith
    linarith
  have hnb : ∀ h : ℝ, 0 ≤ h → hsvToRgb (some h) 1 1 ≠ .black := by
    intro h hh
    have hf := Int.floor_nonneg.mpr (by positivity : 0 ≤ h / 360)
    obtain ⟨k, hk⟩ := Int.eq_ofNat_of_zero_le hf
    have h1 := Int.floor_le (h / 360)
    have h2 := Int.lt_floor_add_one (h / 360)
    have hk' : ((⌊h / 360⌋ : ℤ) : ℝ) = ((k : ℕ) : ℝ) := by rw [hk]; norm_num
    rw [hk'] at h1 h2
    have e := bright_turn (h - 360 * k) (by linarith) k
    rw [sub_add_cancel] at e
    rw [e]
    exact bright_not_black _ (by linarith) (by linarith)
  constructor
  · constructor
    · intro h
      by_contra hn
      rw [not_lt] at hn
      rw [hcol] at h
      exact hnb _ (hnn c hn) h
    · intro h
      rw [hcol]
      have hc' : (0 : ℝ) ≤ (c : ℝ) := by exact_mod_cast hc
      have h1 : ((c : ℝ) - thr) / (400 - thr) < 0 := div_neg_of_neg_of_pos (by linarith) hd
      have h2 : -1 < ((c : ℝ) - thr) / (400 - thr) := by rw [lt_div_iff₀ hd]; linarith
      have hneg : ¬ 0 ≤ 360 * (((c : ℝ) - thr) / (400 - thr)) / 60 := by linarith
      have hceil : ⌈360 * (((c : ℝ) - thr) / (400 - thr)) / 60 / 6⌉ = 0 := by
        rw [Int.ceil_eq_iff]
        push_cast
        constructor <;> linarith
      unfold hsvToRgb
      dsimp only
      unfold fmod
      rw [if_neg hneg, hceil]
      unfold sector Rgb.black
      push_cast
      rw [if_neg (by intro h; linarith [h.1]), if_neg (by intro h; linarith [h.1]), if_neg (by intro h; linarith [h.1]), if_neg (by intro h; linarith [h.1]),
        if_neg (by intro h; linarith [h.1]), if_neg (by intro h; linarith [h.1])]
      norm_num
  · intro c' h1 h2 h3 h4
    rw [hcol, hcol]
    constructor
    · intro h
      have := bright_inj _ _ (hnn c h1) (hlt c h2) (hnn c' h3) (hlt c' h4) h
      have h5 : ((c : ℝ) - thr) / (400 - thr) = ((c' : ℝ) - thr) / (400 - thr) := by linarith
      rw [div_left_inj' hd.ne'] at h5
      have : (c : ℝ) = (c' : ℝ) := by linarith
      exact_mod_cast this
    · intro h; rw [h]

/-- 50 and 250 points with a threshold of 100 -/
example : counterColor 100 50 = .black ∧ counterColor 100 250 ≠ .black :=
  ⟨((C103_counter_partial 100 (by norm_num) (by norm_num) 50 (by norm_num)).1).mpr (by norm_num),
   fun h => absurd (((C103_counter_partial 100 (by norm_num) (by norm_num) 250 (by norm_num)).1).mp h) (by norm_num)⟩

/-- **C103** (the scale of the number of points ends at 400): with the threshold 300, which is permitted, a cell with 200 points looks like one with 300, and with 400 every cell is
black; above 400 points the colours start again. -/
theorem C103_counter_violated : counterColor 300 200 = counterColor 300 300 ∧ (∀ c, counterColor 400 c = .black) ∧
    (∀ (thr : ℝ) (c : ℤ), thr < 400 → thr ≤ c → ∀ c' : ℤ, (c' : ℝ) = c + (400 - thr) → counterColor thr c' = counterColor thr c) := by
  refine ⟨?_, ?_, ?_⟩
  · unfold counterColor hueOf
    rw [if_neg (by norm_num), if_neg (by norm_num)]
    push_cast
    have e1 : (360 * ((200 : ℝ) - 300) / (400 - 300)) = -360 := by norm_num
    have e2 : (360 * ((300 : ℝ) - 300) / (400 - 300)) = 0 := by norm_num
    rw [e1, e2]
    have f1 : fmod (-360 / 60) 6 = 0 := by
      unfold fmod
      rw [if_neg (by norm_num)]
      have : ⌈(-360 : ℝ) / 60 / 6⌉ = -1 := by rw [Int.ceil_eq_iff]; norm_num
      rw [this]
      norm_num
    have f2 : fmod (0 / 60) 6 = 0 := by
      unfold fmod
      norm_num
    unfold hsvToRgb
    dsimp only
    rw [f1, f2]
  · intro c
    unfold counterColor hueOf
    rw [if_pos (by norm_num)]
    unfold hsvToRgb Rgb.black
    norm_num
  · intro thr c ht hc c' hc'
    have hd : 400 - thr ≠ 0 := by linarith
    have hdp : 0 < 400 - thr := by linarith
    unfold counterColor hueOf
    rw [if_neg hd, if_neg hd]
    have e : 360 * ((c' : ℝ) - thr) / (400 - thr) = 360 * ((c : ℝ) - thr) / (400 - thr) + 360 * ((1 : ℕ) : ℝ) := by
      rw [hc']
      field_simp
      push_cast
      ring
    rw [e, bright_turn _ (by
      have : 0 ≤ (c : ℝ) - thr := by linarith
      positivity) 1]

/-! ## Cells -/

theorem cellMarkers_eq (g : Grid ℝ) (z height : ℕ → ℕ → ℝ) (color : ℕ → ℕ → Rgb) : ∀ (l : List (ℕ × ℕ)) (acc : List CellMarker) (k : ℕ),
    (l.foldl (fun (acc : List CellMarker × ℕ) ij =>
      (acc.1 ++ [⟨acc.2, (ij.1 : ℝ) * g.cell_size + g.min_x + g.cell_size / 2, (ij.2 : ℝ) * g.cell_size + g.min_y + g.cell_size / 2, z ij.1 ij.2, g.cell_size,
        height ij.1 ij.2, color ij.1 ij.2⟩], acc.2 + 1)) (acc, k)).1 =
    acc ++ (l.zipIdx k).map fun p => ⟨p.2, (p.1.1 : ℝ) * g.cell_size + g.min_x + g.cell_size / 2, (p.1.2 : ℝ) * g.cell_size + g.min_y + g.cell_size / 2,
      z p.1.1 p.1.2, g.cell_size, height p.1.1 p.1.2, color p.1.1 p.1.2⟩
  | [], acc, k => by simp
  | ij :: l, acc, k => by
      rw [List.foldl_cons, cellMarkers_eq g z height color l, List.zipIdx_cons, List.map_cons, List.append_assoc]
      rfl

/-- **Specification**: the marker `m` covers exactly the cell `(i, j)`: it is a cube of the width of a cell, and a point lies above it exactly if the landing planner counts the
point for the cell. -/
def Covers (g : Grid ℝ) (i j : ℕ) (m : CellMarker) : Prop :=
  m.width = g.cell_size ∧
  ∀ x y, (m.x - m.width / 2 ≤ x ∧ x < m.x + m.width / 2 ∧ m.y - m.width / 2 ≤ y ∧ y < m.y + m.width / 2) ↔ g.computeGridIndexes x y = ((i : ℤ), (j : ℤ))

theorem cellMarkers_get (g : Grid ℝ) (hg : 0 < g.cell_size) (z height : ℕ → ℕ → ℝ) (color : ℕ → ℕ → Rgb) :
    (cellMarkers g z height color).length = g.n * g.n ∧
    ∀ i j, i < g.n → j < g.n → ∃ m, (cellMarkers g z height color)[g.n * i + j]? = some m ∧ m.id = g.n * i + j ∧ Covers g i j m ∧ m.z = z i j ∧ m.height = height i j ∧
      m.color = color i j := by
  unfold cellMarkers
  rw [cellMarkers_eq, List.nil_append]
  constructor
  · rw [List.length_map, List.length_zipIdx, indices_length]
  · intro i j hi hj
    rw [List.getElem?_map, List.getElem?_zipIdx, indices_get g.n i j hi hj]
    refine ⟨_, rfl, by simp, ⟨rfl, ?_⟩, rfl, rfl, rfl⟩
    intro x y
    dsimp only
    unfold Grid.computeGridIndexes
    rw [Prod.mk.injEq, floor_eq_iff_square hg, floor_eq_iff_square hg]
    push_cast
    constructor
    · rintro ⟨h1, h2, h3, h4⟩
      refine ⟨⟨?_, ?_⟩, ?_, ?_⟩ <;> linarith
    · rintro ⟨⟨h1, h2⟩, h3, h4⟩
      refine ⟨?_, ?_, ?_, ?_⟩ <;> linarith

/-- **C103**: the three displays of the grid have one marker for each cell, numbered from 0 row by row, each covering exactly the points counted for its cell. In the display
of the decision it is green if the planner would land there and red if not; in the display of the deviations it is at the height of the mean; the middle of the grid is
marked by higher cubes. -/
theorem C103_cells_partial (g : Grid ℝ) (hg : 0 < g.cell_size) (s : ℤ) (thr thr' : ℝ) :
    ((gridMarkers g s).length = g.n * g.n ∧ (meanStdDevMarkers g thr).length = g.n * g.n ∧ (counterMarkers g thr').length = g.n * g.n) ∧
    ∀ i j, i < g.n → j < g.n →
      (∃ m, (gridMarkers g s)[g.n * i + j]? = some m ∧ m.id = g.n * i + j ∧ Covers g i j m ∧
        (m.color = ⟨0, 1, 0⟩ ↔ g.land i j ≠ 0) ∧ (m.color = ⟨1, 0, 0⟩ ↔ g.land i j = 0) ∧
        (m.height = 8 / 10 ↔ ((g.n / 2 : ℕ) : ℤ) - s ≤ i ∧ (i : ℤ) < ((g.n / 2 : ℕ) : ℤ) + s ∧ ((g.n / 2 : ℕ) : ℤ) - s ≤ j ∧ (j : ℤ) < ((g.n / 2 : ℕ) : ℤ) + s)) ∧
      (∃ m, (meanStdDevMarkers g thr)[g.n * i + j]? = some m ∧ m.id = g.n * i + j ∧ Covers g i j m ∧ m.z = g.mean i j ∧ m.color = stdDevColor thr (g.variance i j)) ∧
      (∃ m, (counterMarkers g thr')[g.n * i + j]? = some m ∧ m.id = g.n * i + j ∧ Covers g i j m ∧ m.color = counterColor thr' (g.counter i j)) := by
  refine ⟨⟨by unfold gridMarkers; exact (cellMarkers_get g hg _ _ _).1, by unfold meanStdDevMarkers; exact (cellMarkers_get g hg _ _ _).1,
    by unfold counterMarkers; exact (cellMarkers_get g hg _ _ _).1⟩, ?_⟩
  intro i j hi hj
  refine ⟨?_, ?_, ?_⟩
  · obtain ⟨m, h1, h2, h3, _, h5, h6⟩ := (cellMarkers_get g hg (fun _ _ => 0)
      (fun i j => if ((g.n / 2 : ℕ) : ℝ) - (s : ℝ) ≤ (i : ℝ) ∧ (i : ℝ) < ((g.n / 2 : ℕ) : ℝ) + s ∧ ((g.n / 2 : ℕ) : ℝ) - s ≤ (j : ℝ) ∧ (j : ℝ) < ((g.n / 2 : ℕ) : ℝ) + s
        then 8 / 10 else 1 / 10)
      (fun i j => if g.land i j ≠ 0 then ⟨0, 1, 0⟩ else ⟨1, 0, 0⟩)).2 i j hi hj
    refine ⟨m, by unfold gridMarkers; exact h1, h2, h3, ?_, ?_, ?_⟩
    · rw [h6]
      split
      · rename_i h; exact ⟨fun _ => h, fun _ => rfl⟩
      · rename_i h
        exact ⟨fun e => by injection e with e1 _ _; norm_num at e1, fun e => absurd e h⟩
    · rw [h6]
      split
      · rename_i h
        exact ⟨fun e => by injection e with e1 _ _; norm_num at e1, fun e => absurd e h⟩
      · rename_i h
        exact ⟨fun _ => not_not.mp h, fun _ => rfl⟩
    · rw [h5]
      have key : (((g.n / 2 : ℕ) : ℝ) - (s : ℝ) ≤ (i : ℝ) ∧ (i : ℝ) < ((g.n / 2 : ℕ) : ℝ) + s ∧ ((g.n / 2 : ℕ) : ℝ) - s ≤ (j : ℝ) ∧ (j : ℝ) < ((g.n / 2 : ℕ) : ℝ) + s) ↔
          (((g.n / 2 : ℕ) : ℤ) - s ≤ i ∧ (i : ℤ) < ((g.n / 2 : ℕ) : ℤ) + s ∧ ((g.n / 2 : ℕ) : ℤ) - s ≤ j ∧ (j : ℤ) < ((g.n / 2 : ℕ) : ℤ) + s) := by
        generalize g.n / 2 = mid
        refine and_congr ?_ (and_congr ?_ (and_congr ?_ ?_)) <;> (constructor <;> intro h <;> exact_mod_cast h)
      rw [← key]
      split
      · rename_i h; exact ⟨fun _ => h, fun _ => rfl⟩
      · rename_i h; exact ⟨fun e => by norm_num at e, fun e => absurd e h⟩
  · obtain ⟨m, h1, h2, h3, h4, _, h6⟩ := (cellMarkers_get g hg (fun i j => g.mean i j) (fun _ _ => 1 / 10) (fun i j => stdDevColor thr (g.variance i j))).2 i j hi hj
    exact ⟨m, h1, h2, h3, h4, h6⟩
  · obtain ⟨m, h1, h2, h3, _, _, h6⟩ := (cellMarkers_get g hg (fun _ _ => 0) (fun _ _ => 1 / 10) (fun i j => counterColor thr' (g.counter i j))).2 i j hi hj
    exact ⟨m, h1, h2, h3, h6⟩

/-- The hypotheses of `C103_cells_partial` are met by a grid with ten by ten cells. -/
example : 0 < (Grid.new 10 1 : Grid ℝ).cell_size ∧ (Grid.new 10 1 : Grid ℝ).n = 10 := by
  refine ⟨?_, ?_⟩
  · norm_num [Grid.new, Grid.resize, Grid.reset]
  · norm_num [Grid.new, Grid.resize, Grid.reset]; rfl

/-- **C103**: the cloud shown consists of the points that are counted, in their order, and the numbers attached to them tell the cells apart: two of them have the same number
exactly if they are counted for the same cell. -/
theorem C103_cloud (g : Grid ℝ) (hs : g.Sized) (hc : g.Centred) (cloud : List (V3 ℝ)) :
    (binnedCloud g g.grid_size g.cell_size cloud).map Prod.fst = cloud.filter (fun p => decide (g.min_x < p.x ∧ p.x < g.max_x ∧ g.min_y < p.y ∧ p.y < g.max_y)) ∧
    ∀ p ∈ binnedCloud g g.grid_size g.cell_size cloud, ∀ q ∈ binnedCloud g g.grid_size g.cell_size cloud,
      (p.2 = q.2 ↔ g.computeGridIndexes p.1.x p.1.y = g.computeGridIndexes q.1.x q.1.y) := by
  refine ⟨?_, ?_⟩
  · induction cloud with
    | nil => rfl
    | cons a l ih =>
        unfold binnedCloud at ih ⊢
        by_cases ha : g.isInsideGrid a.x a.y
        · rw [List.filterMap_cons_some (by rw [if_pos ha]), List.map_cons, ih, List.filter_cons_of_pos]
          exact decide_eq_true ⟨ha.2.1, ha.1, ha.2.2.2, ha.2.2.1⟩
        · rw [List.filterMap_cons_none (by rw [if_neg ha]), ih, List.filter_cons_of_neg]
          intro h
          obtain ⟨h1, h2, h3, h4⟩ := of_decide_eq_true h
          exact ha ⟨h2, h1, h4, h3⟩
  intro p hp q hq
  have hmem : ∀ p ∈ binnedCloud g g.grid_size g.cell_size cloud, p.1 ∈ cloud ∧ g.isInsideGrid p.1.x p.1.y ∧
      p.2 = ((g.computeGridIndexes p.1.x p.1.y).1 : ℝ) * (g.grid_size / g.cell_size) + ((g.computeGridIndexes p.1.x p.1.y).2 : ℝ) := by
    intro p hp
    unfold binnedCloud at hp
    rw [List.mem_filterMap] at hp
    obtain ⟨a, ha, h⟩ := hp
    split at h
    · rename_i hin
      obtain rfl := Option.some.inj h
      exact ⟨ha, hin, rfl⟩
    · exact absurd h (by simp)
  obtain ⟨h1, h2, h3⟩ := hmem p hp
  obtain ⟨k1, k2, k3⟩ := hmem q hq
  rw [h3, k3]
  constructor
  · intro h
    have hy : ∀ u : V3 ℝ, g.isInsideGrid u.x u.y → 0 ≤ ((g.computeGridIndexes u.x u.y).2 : ℝ) ∧ ((g.computeGridIndexes u.x u.y).2 : ℝ) < g.grid_size / g.cell_size := by
      intro u hu
      obtain ⟨_, _, u3, u4⟩ := hu
      have hmax := hc.2
      unfold Grid.computeGridIndexes
      dsimp only
      constructor
      · exact_mod_cast Int.floor_nonneg.mpr (div_nonneg (by linarith) hs.1.le)
      · refine lt_of_le_of_lt (Int.floor_le _) ?_
        rw [div_lt_div_iff_of_pos_right hs.1]
        linarith
    obtain ⟨a1, a2⟩ := hy p.1 h2
    obtain ⟨b1, b2⟩ := hy q.1 k2
    generalize g.computeGridIndexes p.1.x p.1.y = a at *
    generalize g.computeGridIndexes q.1.x q.1.y = b at *
    have hR : 0 < g.grid_size / g.cell_size := div_pos hs.2.1 hs.1
    generalize g.grid_size / g.cell_size = R at *
    have hab : a.1 = b.1 := by
      rcases lt_trichotomy a.1 b.1 with hl | hl | hl
      · exfalso
        have : (a.1 : ℝ) + 1 ≤ (b.1 : ℝ) := by exact_mod_cast hl
        nlinarith
      · exact hl
      · exfalso
        have : (b.1 : ℝ) + 1 ≤ (a.1 : ℝ) := by exact_mod_cast hl
        nlinarith
    rw [hab] at h
    have : (a.2 : ℝ) = (b.2 : ℝ) := by linarith
    exact Prod.ext hab (by exact_mod_cast this)
  · intro h; rw [h]

/-- Two points in different cells and one outside. -/
example : (⟨1, 0, 0⟩ : V3 ℝ) ∈ [(⟨1, 0, 0⟩ : V3 ℝ), ⟨-1, 0, 0⟩, ⟨100, 0, 0⟩].filter
      (fun p => decide (((Grid.new 10 1 : Grid ℝ).setFilterLimits 0 0).min_x < p.x ∧ p.x < ((Grid.new 10 1 : Grid ℝ).setFilterLimits 0 0).max_x ∧
        ((Grid.new 10 1 : Grid ℝ).setFilterLimits 0 0).min_y < p.y ∧ p.y < ((Grid.new 10 1 : Grid ℝ).setFilterLimits 0 0).max_y)) ∧
    ((Grid.new 10 1 : Grid ℝ).setFilterLimits 0 0).Sized ∧ ((Grid.new 10 1 : Grid ℝ).setFilterLimits 0 0).Centred := by
  refine ⟨?_, ⟨?_, ?_, ?_⟩, centred_setFilterLimits _ _ _⟩
  · rw [List.mem_filter]
    refine ⟨by simp, decide_eq_true ?_⟩
    norm_num [Grid.new, Grid.resize, Grid.reset, Grid.setFilterLimits]
  · norm_num [Grid.new, Grid.resize, Grid.reset, Grid.setFilterLimits]
  · norm_num [Grid.new, Grid.resize, Grid.reset, Grid.setFilterLimits]
  · norm_num [Grid.new, Grid.resize, Grid.reset, Grid.setFilterLimits]

/-! ## The message and the display -/

/-- **C103** (the waypoint generator gets the grid one cycle later): the grid sent to the waypoint generator at the end of a cycle is not the one shown in that cycle, but the
one shown in the cycle before (if the size was not changed in between). -/
theorem C103_message_lags_violated (sqrt : ℝ → ℝ) (s s' : Planner ℝ) (inp : Input ℝ) (h : run s inp = some s') (hsz : s.size_update = false) (seq : ℤ) :
    (publishSerialGrid sqrt s' seq).land = (indices s.grid.n s.grid.n).map (fun ij => s.grid.land ij.1 ij.2) ∧
    (publishSerialGrid sqrt s' seq).mean = (indices s.grid.n s.grid.n).map (fun ij => s.grid.mean ij.1 ij.2) := by
  have hprev : s'.previous = s.grid := by
    unfold run at h
    have ha : applySizeUpdate s = s := by unfold applySizeUpdate; rw [hsz]; rfl
    rw [ha] at h
    dsimp only at h
    rw [Option.bind_eq_some_iff] at h
    obtain ⟨s1, h1, h2⟩ := h
    rw [Option.map_eq_some_iff] at h2
    obtain ⟨g, _, rfl⟩ := h2
    have e : (isLandingPossible { s1 with grid := g }).previous = s1.previous := rfl
    rw [e]
    cases inp with
    | cloud c =>
        dsimp only at h1
        unfold processPointcloud at h1
        rw [Option.map_eq_some_iff] at h1
        obtain ⟨_, _, rfl⟩ := h1
        rfl
    | raw m =>
        dsimp only at h1
        unfold processRawGrid at h1
        dsimp only at h1
        rw [Option.map_eq_some_iff] at h1
        obtain ⟨_, _, rfl⟩ := h1
        rfl
  unfold publishSerialGrid
  dsimp only
  rw [hprev]
  exact ⟨rfl, rfl⟩

/-! ## The path -/

variable {P : Type}

/-- **Specification**: the poses of a history, the newest first, from the newest first pose `p0`. -/
def posesOf (p0 : P) : List (PathEvent P) → List P
  | [] => [p0]
  | .pose p :: l => p :: posesOf p0 l
  | .cycle :: l => posesOf p0 l

/-- the state after the events (newest first) -/
def pathRun (s : PathSt P) : List (PathEvent P) → PathSt P
  | [] => s
  | e :: l => pathStep (pathRun s l) e

/-- **C103**: the segments of the path shown are numbered from 0 in order, and each joins two positions that were received one after the other (or the first one with itself). -/
theorem C103_path_partial (p0 : P) (l : List (PathEvent P)) :
    let s := pathRun ⟨p0, p0, 0, []⟩ l
    (s.shown.map Prod.fst = List.range s.next ∧ s.next = l.countP (fun e => match e with | .cycle => true | _ => false)) ∧
    ∀ seg ∈ s.shown, ∃ newer older, posesOf p0 l = newer ++ seg.2.2 :: older ∧ (older.head? = some seg.2.1 ∨ (older = [] ∧ seg.2.1 = seg.2.2)) := by
  have key : ∀ l : List (PathEvent P), let s := pathRun (⟨p0, p0, 0, []⟩ : PathSt P) l
      (s.shown.map Prod.fst = List.range s.next ∧ s.next = l.countP (fun e => match e with | .cycle => true | _ => false)) ∧
      (∃ older, posesOf p0 l = s.cur :: older ∧ (older.head? = some s.prev ∨ (older = [] ∧ s.prev = s.cur))) ∧
      ∀ seg ∈ s.shown, ∃ newer older, posesOf p0 l = newer ++ seg.2.2 :: older ∧ (older.head? = some seg.2.1 ∨ (older = [] ∧ seg.2.1 = seg.2.2)) := by
    intro l
    induction l with
    | nil => exact ⟨⟨rfl, rfl⟩, ⟨[], rfl, Or.inr ⟨rfl, rfl⟩⟩, fun seg h => absurd h (by simp [pathRun])⟩
    | cons e l ih =>
        obtain ⟨⟨h1, h2⟩, ⟨older, h3, h4⟩, h5⟩ := ih
        cases e with
        | pose p =>
            refine ⟨⟨h1, h2⟩, ⟨posesOf p0 l, rfl, Or.inl ?_⟩, ?_⟩
            · rw [h3]; rfl
            · intro seg hseg
              obtain ⟨newer, older, k1, k2⟩ := h5 seg hseg
              exact ⟨p :: newer, older, by rw [posesOf, k1]; rfl, k2⟩
        | cycle =>
            refine ⟨⟨?_, ?_⟩, ⟨older, h3, h4⟩, ?_⟩
            · show (_ ++ [_] : List (ℕ × P × P)).map Prod.fst = List.range (_ + 1)
              rw [List.map_append, h1, List.range_succ]
              rfl
            · show _ + 1 = _
              rw [h2, List.countP_cons]
              simp
            · intro seg hseg
              rcases List.mem_append.mp hseg with hseg | hseg
              · exact h5 seg hseg
              · rw [List.mem_singleton.mp hseg]
                exact ⟨[], older, h3, h4⟩
  exact ⟨(key l).1, (key l).2.2⟩

/-- **C103** (the path shown has gaps): if two positions arrive between two cycles, the segments do not meet; if none arrives, a segment is shown twice. -/
theorem C103_path_gaps_violated (p0 a b c : P) :
    (pathRun (⟨p0, p0, 0, []⟩ : PathSt P) [.cycle, .pose c, .pose b, .cycle, .pose a]).shown = [(0, p0, a), (1, b, c)] ∧
    (pathRun (⟨p0, p0, 0, []⟩ : PathSt P) [.cycle, .cycle, .pose a]).shown = [(0, p0, a), (1, p0, a)] := ⟨rfl, rfl⟩

/-! ## The area for landing -/

/-- **C103**: the area shown by the waypoint generator has one marker for each cell of the square around the middle cell of the grid. If the middle is cell 20 (a grid of 40 or
41 cells, as with the default parameters), a marker is green exactly if landing is possible in the cell and the cell belongs to the disc that is tested. -/
theorem C103_area_partial (w : Slp ℝ) [Decidable (visualisationInRange w)] (ms : List ((ℝ × ℝ) × Bool)) (h : areaMarkers w = some ms)
    (hm : w.mask_n = 2 * w.smoothing_land_cell + 1) (hmid : w.grid.n / 2 = 20) :
    ms.length = (2 * w.smoothing_land_cell + 1) ^ 2 ∧
    ∀ i j, i < 2 * w.smoothing_land_cell + 1 → j < 2 * w.smoothing_land_cell + 1 →
      ∃ m, ms[(2 * w.smoothing_land_cell + 1) * i + j]? = some m ∧
        m.1 = (w.grid.min_x + (20 - (w.smoothing_land_cell : ℝ) + i) * w.grid.cell_size, w.grid.min_y + (20 - (w.smoothing_land_cell : ℝ) + j) * w.grid.cell_size) ∧
        (m.2 = true ↔ w.result (20 - w.smoothing_land_cell + i) (20 - w.smoothing_land_cell + j) ≠ 0 ∧ w.mask i j ≠ 0) := by
  unfold areaMarkers at h
  split at h
  · obtain rfl := Option.some.inj h
    constructor
    · rw [List.length_map, indices_length, sq]
    · intro i j hi hj
      rw [List.getElem?_map, indices_get _ i j hi hj]
      refine ⟨_, rfl, ?_, ?_⟩
      · unfold areaMarker
        dsimp only
        rw [hmid]
        push_cast
        rw [mul_comm, mul_comm w.grid.cell_size]
      unfold areaMarker kernelAt
      dsimp only
      rw [hmid, if_pos (by rw [hm]; push_cast; omega)]
      have e1 : ((20 : ℕ) : ℤ) - (w.smoothing_land_cell : ℤ) + (i : ℤ) - (20 - (w.smoothing_land_cell : ℤ)) = i := by push_cast; ring
      have e2 : ((20 : ℕ) : ℤ) - (w.smoothing_land_cell : ℤ) + (j : ℤ) - (20 - (w.smoothing_land_cell : ℤ)) = j := by push_cast; ring
      rw [e1, e2, decide_eq_true_iff, mul_ne_zero_iff]
      rfl
  · exact absurd h (by simp)

/-- **C103** (the area is shown half a cell off): the marker of cell `(k, l)` is centred at the corner of the cell. -/
theorem C103_area_offset_violated (w : Slp ℝ) (k l : ℤ) (hc : 0 < w.grid.cell_size) :
    (areaMarker w k l).1 = (w.grid.min_x + k * w.grid.cell_size, w.grid.min_y + l * w.grid.cell_size) ∧
    w.grid.computeGridIndexes (areaMarker w k l).1.1 (areaMarker w k l).1.2 = (k, l) ∧
    (∀ d, 0 < d → d ≤ w.grid.cell_size / 2 → w.grid.computeGridIndexes ((areaMarker w k l).1.1 - d) ((areaMarker w k l).1.2 - d) = (k - 1, l - 1)) := by
  unfold areaMarker Grid.computeGridIndexes
  dsimp only
  refine ⟨by rw [mul_comm, mul_comm w.grid.cell_size], ?_, ?_⟩
  · rw [Prod.mk.injEq, floor_eq_iff_square hc, floor_eq_iff_square hc]
    refine ⟨⟨?_, ?_⟩, ?_, ?_⟩ <;> linarith
  · intro d h1 h2
    rw [Prod.mk.injEq, floor_eq_iff_square hc, floor_eq_iff_square hc]
    push_cast
    refine ⟨⟨?_, ?_⟩, ?_, ?_⟩ <;> linarith

/-- **C103** (the hard-coded middle): with any grid whose middle is further from cell 20 than the diameter of the disc, every marker is red, whatever was decided. -/
theorem C103_area_middle_violated (w : Slp ℝ) [Decidable (visualisationInRange w)] (ms : List ((ℝ × ℝ) × Bool)) (h : areaMarkers w = some ms)
    (hm : w.mask_n = 2 * w.smoothing_land_cell + 1) (hmid : w.grid.n / 2 + 2 * w.smoothing_land_cell < 20 ∨ 20 + 2 * w.smoothing_land_cell < w.grid.n / 2) :
    ∀ m ∈ ms, m.2 = false := by
  unfold areaMarkers at h
  split at h
  · obtain rfl := Option.some.inj h
    intro m hmem
    obtain ⟨ij, hij, rfl⟩ := List.mem_map.mp hmem
    have := mem_indices.mp hij
    unfold areaMarker kernelAt
    dsimp only
    rw [if_neg (by rw [hm]; push_cast; omega), mul_zero]
    simp
  · exact absurd h (by simp)

/-- **C103** (the hard-coded middle, in full): whatever the grid, a marker is green exactly if landing is possible in its cell and the cell belongs to the disc around cell (20, 20)
- not to the disc around the middle of the grid, which is the one tested. -/
theorem C103_area_law_violated (w : Slp ℝ) [Decidable (visualisationInRange w)] (ms : List ((ℝ × ℝ) × Bool)) (h : areaMarkers w = some ms)
    (hm : w.mask_n = 2 * w.smoothing_land_cell + 1) (i j : ℕ) (hi : i < 2 * w.smoothing_land_cell + 1) (hj : j < 2 * w.smoothing_land_cell + 1) :
    ∃ (m : (ℝ × ℝ) × Bool) (k l : ℤ), ms[(2 * w.smoothing_land_cell + 1) * i + j]? = some m ∧
      k = ((w.grid.n / 2 : ℕ) : ℤ) - w.smoothing_land_cell + i ∧ l = ((w.grid.n / 2 : ℕ) : ℤ) - w.smoothing_land_cell + j ∧
      m.1 = (w.grid.min_x + k * w.grid.cell_size, w.grid.min_y + l * w.grid.cell_size) ∧
      (m.2 = true ↔ w.result k l ≠ 0 ∧ |k - 20| ≤ w.smoothing_land_cell ∧ |l - 20| ≤ w.smoothing_land_cell ∧
        w.mask (k - 20 + w.smoothing_land_cell) (l - 20 + w.smoothing_land_cell) ≠ 0) := by
  unfold areaMarkers at h
  split at h
  · obtain rfl := Option.some.inj h
    refine ⟨areaMarker w (((w.grid.n / 2 : ℕ) : ℤ) - w.smoothing_land_cell + i) (((w.grid.n / 2 : ℕ) : ℤ) - w.smoothing_land_cell + j), _, _, ?_, rfl, rfl, ?_, ?_⟩
    · rw [List.getElem?_map, indices_get _ i j hi hj]
      rfl
    · unfold areaMarker
      dsimp only
      rw [mul_comm, mul_comm w.grid.cell_size]
    · generalize ((w.grid.n / 2 : ℕ) : ℤ) - w.smoothing_land_cell + i = k
      generalize ((w.grid.n / 2 : ℕ) : ℤ) - w.smoothing_land_cell + j = l
      unfold areaMarker kernelAt
      dsimp only
      rw [decide_eq_true_iff, mul_ne_zero_iff, abs_le, abs_le,
        show k - 20 + (w.smoothing_land_cell : ℤ) = k - (20 - w.smoothing_land_cell) by ring,
        show l - 20 + (w.smoothing_land_cell : ℤ) = l - (20 - w.smoothing_land_cell) by ring]
      by_cases hin : 20 - (w.smoothing_land_cell : ℤ) ≤ k ∧ k < 20 - (w.smoothing_land_cell : ℤ) + w.mask_n ∧
          20 - (w.smoothing_land_cell : ℤ) ≤ l ∧ l < 20 - (w.smoothing_land_cell : ℤ) + w.mask_n
      · rw [if_pos hin]
        rw [hm] at hin
        push_cast at hin
        exact and_congr Iff.rfl ⟨fun h => ⟨by omega, by omega, h⟩, fun h => h.2.2⟩
      · rw [if_neg hin]
        rw [hm] at hin
        push_cast at hin
        exact and_congr Iff.rfl ⟨fun h => absurd rfl h, fun h => absurd h (by omega)⟩
  · exact absurd h (by simp)

/-- The waypoint generator as it starts, with a grid of `n` metres in cells of one metre and a disc of radius `c`, all of which could be landed on. -/
def areaWith (n : ℕ) (c : ℕ) : Slp ℝ :=
  { (slpInit : SlpNode ℝ).gen with grid := Grid.new (n : ℝ) 1, smoothing_land_cell := c, mask_n := 2 * c + 1, mask := maskOf c, hyst_n := n, result := fun _ _ => 1 }

theorem areaWith_n (n c : ℕ) : (areaWith n c).grid.n = n := by
  show ⌈((n : ℕ) : ℝ) / 1⌉.toNat = n
  rw [div_one, Int.ceil_natCast]
  rfl

/-- The hypotheses of `C103_area_partial` (a grid of 40 cells) and of `C103_area_middle_violated` (a grid of 100 cells) are met. -/
example : (visualisationInRange (areaWith 40 6) ∧ (areaWith 40 6).grid.n / 2 = 20 ∧ (areaWith 40 6).mask_n = 2 * (areaWith 40 6).smoothing_land_cell + 1) ∧
    (visualisationInRange (areaWith 100 6) ∧ 20 + 2 * (areaWith 100 6).smoothing_land_cell < (areaWith 100 6).grid.n / 2 ∧
      (areaWith 100 6).mask_n = 2 * (areaWith 100 6).smoothing_land_cell + 1 ∧ (areaWith 100 6).result 50 50 * (areaWith 100 6).mask 6 6 ≠ 0) := by
  refine ⟨⟨?_, by rw [areaWith_n], rfl⟩, ?_, ?_, rfl, ?_⟩
  · unfold visualisationInRange
    rw [areaWith_n]
    simp only [areaWith]
    omega
  · unfold visualisationInRange
    rw [areaWith_n]
    simp only [areaWith]
    omega
  · rw [areaWith_n]
    simp only [areaWith]
    omega
  · simp only [areaWith]
    decide

end

end Landing
end Avoidance
