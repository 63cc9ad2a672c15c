import Mathlib.Tactic.IntervalCases
import Verif.SlpRunProps

/-!
# The landing state machine over whole runs, continued: what was observed before landing (C47), resets (C49)
-/

namespace Avoidance
namespace Landing

set_option linter.unusedSectionVars false

variable {K : Type*} [Field K] [LinearOrder K] [IsStrictOrderedRing K] [FloorRing K]

/-! ## Specification -/

instance (e : SlpEvent K) : Decidable e.isIterate := by cases e <;> (unfold SlpEvent.isIterate; infer_instance)

/-- The number of iterations among the events `j, ..., j + n - 1` at which the cell `(a, b)` of the latest grid was
landable. -/
def sightings (h : ℕ → SlpNode K) (ev : ℕ → SlpEvent K) (j n : ℕ) (a b : ℤ) : ℕ :=
  (List.range n).countP fun m => decide ((ev (j + m)).isIterate ∧ (h (j + m)).gen.grid.land a b = 1)

/-- Grid messages carry only 0 and 1 as landable flags (C45). -/
def LandFlags : SlpEvent K → Prop
  | .grid m => ∀ x ∈ m.land, x = 0 ∨ x = 1
  | _ => True

theorem sightings_succ (h : ℕ → SlpNode K) (ev : ℕ → SlpEvent K) (j n : ℕ) (a b : ℤ) :
    sightings h ev j (n + 1) a b = sightings h ev j n a b +
      if (ev (j + n)).isIterate ∧ (h (j + n)).gen.grid.land a b = 1 then 1 else 0 := by
  unfold sightings
  rw [List.range_succ, List.countP_append]
  congr 1
  simp

theorem gridCell_land (m : GridMsg K) (hm : ∀ x ∈ m.land, x = 0 ∨ x = 1) (l : List (ℕ × ℕ)) :
    ∀ (g g' : Grid K), (∀ a b, g.land a b = 0 ∨ g.land a b = 1) → loopM (gridCell m) g l = some g' →
      ∀ a b, g'.land a b = 0 ∨ g'.land a b = 1 := by
  induction l with
  | nil => intro g g' h e; cases e; exact h
  | cons ij l ih =>
    intro g g' h e
    unfold loopM at e
    obtain ⟨g1, e1, e2⟩ := Option.bind_eq_some_iff.mp e
    refine ih g1 g' ?_ e2
    unfold gridCell at e1
    split_ifs at e1
    split at e1
    · cases e1
      rename_i x y hx hy
      intro a b
      dsimp only
      unfold write
      split_ifs
      · exact hm _ (List.mem_of_getElem? hy)
      · exact h a b
    · cases e1

theorem run_land {ny : V3 (Option K) → V3 (Option K) → Option K} {N : ℕ} {h : ℕ → SlpNode K} {ev : ℕ → SlpEvent K}
    (r : SlpRun ny N h ev) (hl : ∀ k < N, LandFlags (ev k)) :
    ∀ k ≤ N, ∀ a b, (h k).gen.grid.land a b = 0 ∨ (h k).gen.grid.land a b = 1 := by
  intro k
  induction k with
  | zero => intro _ a b; rw [r.start]; exact Or.inl rfl
  | succ k ih =>
    intro hk
    have hp := ih (by omega)
    have hs := r.step k (by omega)
    by_cases hi : (ev k).isIterate
    · have hc := run_iterate r k (by omega) hi
      have : (h (k + 1)).gen.grid = (h k).gen.grid := by
        have fg := (update_frame (h k).gen).2.2.1
        rcases calc_cases ny _ _ hc with ⟨_, e⟩ | ⟨_, t, v, e, hm⟩
        · rw [e]; exact fg
        · have kg : v.grid = (updateSlpState (h k).gen).grid := by
            cases hst : (h k).gen.state <;> rw [hst] at hm <;> dsimp only at hm
            · exact (runGoTo_out ny _ _ _ hm).1.grid
            · exact (runLoiter_out _ _ _ hm).1.grid
            · exact (runLand_out _ _ _ hm).1.grid
            · exact (runAltitude_out _ _ _ hm).1.grid
            · exact (runEvaluate_out _ _ _ hm).1.grid
            · exact (runGoToLand_out ny _ _ _ hm).1.grid
          rw [e]
          split_ifs
          · exact kg.trans fg
          · exact kg.trans fg
      rw [this]
      exact hp
    · have hlk := hl k (by omega)
      generalize ev k = e at hs hi hlk
      cases e with
      | iterate => exact absurd trivial hi
      | position p y => rw [← Option.some_inj.mp hs]; exact hp
      | reconfigure a b c d f g => rw [← Option.some_inj.mp hs]; exact hp
      | trajectory m =>
        have : (h (k + 1)).gen.grid = (h k).gen.grid := by
          rw [← Option.some_inj.mp hs]
          unfold trajectoryCallback
          dsimp only
          split_ifs <;> rfl
        rw [this]; exact hp
      | state mode armed =>
        have : (h (k + 1)).gen.grid = (h k).gen.grid := by
          rw [← Option.some_inj.mp hs]
          unfold stateCallback
          cases mode <;> cases armed <;> rfl
        rw [this]; exact hp
      | grid m =>
        obtain ⟨g, hg, e⟩ := Option.map_eq_some_iff.mp hs
        rw [← e]
        refine gridCell_land m hlk _ _ _ ?_ hg
        split_ifs
        · intro a b; exact Or.inl rfl
        · exact hp

/-- The filter constant is `β` and the threshold `thr` from event `j` to event `j + n`. -/
def SteadyParams (h : ℕ → SlpNode K) (j n : ℕ) (beta thr : K) : Prop :=
  ∀ m, j ≤ m → m ≤ j + n → (h m).gen.beta = beta ∧ (h m).gen.can_land_thr = thr

/-- What holds along a run about the landing decision. -/
structure DecisionInv (h : ℕ → SlpNode K) (ev : ℕ → SlpEvent K) (k : ℕ) : Prop where
  alt : (h k).gen.state = .ALTITUDE_CHANGE → ∀ a b, (h k).gen.hyst a b = 0
  loiter : (h k).gen.state = .LOITER → ∃ j n, j + n = k ∧ (∀ m, j ≤ m → m ≤ k → (h m).gen.state = .LOITER) ∧
    ∀ beta thr, 0 ≤ beta → beta ≤ 1 → SteadyParams h j n beta thr → ∀ a b, (h k).gen.hyst a b ≤ 1 - beta ^ sightings h ev j n a b
  eval : (h k).gen.state = .EVALUATE_GRID → ∃ j n, j + n < k ∧ (∀ m, j ≤ m → m ≤ j + n → (h m).gen.state = .LOITER) ∧
    (∀ m, j + n < m → m ≤ k → (h m).gen.state = .EVALUATE_GRID) ∧
    ∀ beta thr, 0 ≤ beta → beta ≤ 1 → 0 ≤ thr → SteadyParams h j n beta thr →
      ∀ a b, (h k).gen.result a b = 1 → thr < 1 - beta ^ sightings h ev j n a b

theorem SteadyParams.mono {h : ℕ → SlpNode K} {j n : ℕ} {beta thr : K} (hs : SteadyParams h j (n + 1) beta thr) : SteadyParams h j n beta thr :=
  fun m h1 h2 => hs m h1 (by omega)

theorem run_decision {ny : V3 (Option K) → V3 (Option K) → Option K} {N : ℕ} {h : ℕ → SlpNode K} {ev : ℕ → SlpEvent K}
    (r : SlpRun ny N h ev) (hl : ∀ k < N, LandFlags (ev k)) :
    ∀ k ≤ N, DecisionInv h ev k := by
  have pow_le : ∀ beta : K, 0 ≤ beta → beta ≤ 1 → ∀ c : ℕ, 0 ≤ 1 - beta ^ c := fun beta hb0 hb1 c => sub_nonneg.mpr (pow_le_one₀ hb0 hb1)
  intro k
  induction k with
  | zero => intro _; constructor <;> (intro hs; rw [r.start] at hs; cases hs)
  | succ k ih =>
    intro hk
    have inv := ih (by omega)
    by_cases hi : (ev k).isIterate
    · have hc := run_iterate r k (by omega) hi
      have hland := run_land r hl k (by omega)
      rcases calc_summary ny _ _ hc with ⟨_, e⟩ | ⟨_, ⟨e0, e | ⟨e, _, hh⟩⟩ | ⟨e0, e | e, hh⟩ | ⟨e0, ⟨e, hh⟩ | ⟨e, hh⟩⟩ | ⟨e0, e | ⟨e, c, hcl⟩⟩ | ⟨e0, e | ⟨e, hw⟩⟩ | ⟨e0, e⟩⟩
      all_goals refine ⟨fun hs => ?_, fun hs => ?_, fun hs => ?_⟩
      any_goals (exfalso; rw [e] at hs; cases hs; done)
      · -- GOTO to ALTITUDE_CHANGE
        intro a b; rw [hh]
      · -- ALTITUDE_CHANGE stays
        intro a b
        rw [hh]
        rcases update_hyst (h k).gen with eh | eh
        · rw [eh]; exact inv.alt e0 a b
        · rw [eh]
      · -- ALTITUDE_CHANGE to LOITER
        refine ⟨k + 1, 0, rfl, fun m h1 h2 => by rw [show m = k + 1 by omega]; exact e, fun beta thr _ _ _ a b => ?_⟩
        rw [hh]
        unfold sightings
        simp only [List.range_zero, List.countP_nil, pow_zero, sub_self]
        rcases update_hyst (h k).gen with eh | eh
        · rw [eh]; exact (inv.alt e0 a b).le
        · rw [eh]
      · -- LOITER stays
        obtain ⟨j, n, hjn, h1, h2⟩ := inv.loiter e0
        refine ⟨j, n + 1, by omega, fun m hm1 hm2 => ?_, fun beta thr hb0 hb1 hst a b => ?_⟩
        · by_cases hmk : m = k + 1
          · rw [hmk]; exact e
          · exact h1 m hm1 (by omega)
        · obtain ⟨cb, -⟩ := hst k (by omega) (by omega)
          rw [hh, sightings_succ, hjn]
          dsimp only
          have hu : (updateSlpState (h k).gen).hyst a b ≤ 1 - beta ^ sightings h ev j n a b := by
            rcases update_hyst (h k).gen with eh | eh
            · rw [eh]; exact h2 beta thr hb0 hb1 hst.mono a b
            · rw [eh]; exact pow_le beta hb0 hb1 _
          rw [cb]
          rcases hland a b with h0 | h0
          · rw [if_neg (by rintro ⟨_, h1⟩; omega), h0, add_zero]
            have := mul_le_mul_of_nonneg_left hu hb0
            have h3 := mul_le_mul_of_nonneg_right hb1 (pow_le beta hb0 hb1 (sightings h ev j n a b))
            push_cast
            linarith
          · rw [if_pos ⟨hi, h0⟩, h0, pow_succ]
            have := mul_le_mul_of_nonneg_left hu hb0
            push_cast
            linarith
      · -- LOITER to EVALUATE_GRID
        obtain ⟨j, n, hjn, h1, h2⟩ := inv.loiter e0
        refine ⟨j, n, by omega, fun m hm1 hm2 => h1 m hm1 (by omega), fun m hm1 hm2 => ?_, fun beta thr hb0 hb1 ht hst a b hr => ?_⟩
        · rw [show m = k + 1 by omega]; exact e
        · obtain ⟨-, ct⟩ := hst k (by omega) (by omega)
          rw [hh] at hr
          dsimp only at hr
          rw [ct] at hr
          have hu : (updateSlpState (h k).gen).hyst a b ≤ 1 - beta ^ sightings h ev j n a b := by
            rcases update_hyst (h k).gen with eh | eh
            · rw [eh]; exact h2 beta thr hb0 hb1 hst a b
            · rw [eh]; exact pow_le beta hb0 hb1 _
          refine lt_of_lt_of_le ?_ hu
          by_contra hle
          rw [not_lt] at hle
          unfold hystSelect at hr
          dsimp only at hr
          rw [if_pos hle, if_neg (not_lt.mpr ht), Int.floor_zero] at hr
          exact absurd hr (by norm_num)
    · obtain ⟨e1, e2, e3, _⟩ := callback_frame ny _ _ _ hi (r.step k (by omega))
      refine ⟨fun hs => ?_, fun hs => ?_, fun hs => ?_⟩
      · rw [e2]; exact inv.alt (by rw [← e1]; exact hs)
      · obtain ⟨j, n, hjn, h1, h2⟩ := inv.loiter (by rw [← e1]; exact hs)
        refine ⟨j, n + 1, by omega, fun m hm1 hm2 => ?_, fun beta thr hb0 hb1 hst a b => ?_⟩
        · by_cases hmk : m = k + 1
          · rw [hmk]; exact hs
          · exact h1 m hm1 (by omega)
        · rw [e2, sightings_succ, hjn, if_neg (fun h => hi h.1), add_zero]
          exact h2 beta thr hb0 hb1 hst.mono a b
      · obtain ⟨j, n, hjn, h1, h2, h3⟩ := inv.eval (by rw [← e1]; exact hs)
        refine ⟨j, n, by omega, h1, fun m hm1 hm2 => ?_, fun beta thr hb0 hb1 ht hst a b => ?_⟩
        · by_cases hmk : m = k + 1
          · rw [hmk]; exact hs
          · exact h2 m hm1 (by omega)
        · rw [e3]; exact h3 beta thr hb0 hb1 ht hst a b

/-- **C47, evidence.** In every run: whenever the node is landing or on its way to the landing site, there was a grid evaluation
(event `i`) that found a landing patch all of whose cells had been seen landable, during one uninterrupted loiter phase (the events from
`j` to `j + n`) just before the evaluation, in so many iterations `c` that `1 - βᶜ` exceeds the threshold - `β ∈ [0, 1]` and the threshold
(`≥ 0`) being those in force during that phase. -/
theorem C47_landing_evidence {ny : V3 (Option K) → V3 (Option K) → Option K} {N : ℕ} {h : ℕ → SlpNode K} {ev : ℕ → SlpEvent K}
    (r : SlpRun ny N h ev) (hl : ∀ k < N, LandFlags (ev k)) (k : ℕ) (hk : k ≤ N)
    (hs : (h k).gen.state = .GOTO_LAND ∨ (h k).gen.state = .LAND) :
    ∃ i j n, i < k ∧ j + n < i ∧ (∀ m, j ≤ m → m ≤ j + n → (h m).gen.state = .LOITER) ∧
      (∀ m, j + n < m → m ≤ i → (h m).gen.state = .EVALUATE_GRID) ∧
      (∀ m, i < m → m ≤ k → (h m).gen.state = .GOTO_LAND ∨ (h m).gen.state = .LAND) ∧
      ∃ a b, ∀ x y, InPatch (h i).gen.smoothing_land_cell a b x y → InGrid (h i).gen.hyst_n x y ∧
        ∀ beta thr, 0 ≤ beta → beta ≤ 1 → 0 ≤ thr → SteadyParams h j n beta thr → thr < 1 - beta ^ sightings h ev j n x y := by
  obtain ⟨i, hi, h1, _, ⟨a, b, hp⟩, h4⟩ := C47_landing_was_checked r k hk hs
  obtain ⟨j, n, hjn, g1, g2, g3⟩ := (run_decision r hl i (by omega)).eval h1
  exact ⟨i, j, n, hi, hjn, g1, g2, h4, a, b, fun x y hxy => ⟨(hp x y hxy).1, fun beta thr b0 b1 t0 hst => g3 beta thr b0 b1 t0 hst x y (hp x y hxy).2⟩⟩

/-- With the default parameters this means at least five sightings of each cell. -/
example (c : ℕ) (h : (4/10 : ℚ) < 1 - (9/10) ^ c) : 5 ≤ c := by
  by_contra hlt
  interval_cases c <;> norm_num at h

/-! ## C47: where the vehicle lands -/

/-- The radius used on the way to the landing site, if the landing waypoint stays in force. -/
theorem update_radius (w : Slp K) (hl : w.is_land_waypoint = true) : (updateSlpState w).landing_radius = w.landing_radius := by
  have e : (updateHysteresisSize (updateMask w)).is_land_waypoint = true := by
    unfold updateHysteresisSize updateMask
    split_ifs <;> exact hl
  unfold updateSlpState updateNotLanding
  rw [if_pos e]
  unfold updateHysteresisSize updateMask
  split_ifs <;> rfl

end Landing
end Avoidance
