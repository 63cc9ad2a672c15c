import Verif.GpFallbackProps
import Verif.GpSearchEffort
import Verif.GpHeurProps

/-!
# The last resort of the planner does not give up (C76)
-/

namespace Avoidance
namespace Global

set_option linter.unusedSectionVars false

section
variable {K : Type*} [Field K] [LinearOrder K] [IsStrictOrderedRing K] [FloorRing K]

/-! ## Specification -/

/-- `l` is a route from `s` to `t` the cell search may take: open steps to cells of known risk that are not too risky (the risk of
the target only has to be known). -/
def OpenRoute (C : OldCfg K) (risk : Cell → Option K) (is3D : Bool) (s t : Cell) (l : List Cell) : Prop :=
  l.head? = some s ∧ l.getLast? = some t ∧
    l.IsChain (fun a b => OpenStep C is3D a b ∧ (LowRisk C risk b ∨ (b = t ∧ ∃ r, risk b = some r)))

/-! ## Proofs -/

theorem old_step {C : OldCfg K} {risk : Cell → Option K} (sc : K) (is3D : Bool) (t : Cell) (pick : List ((Cell × Bool) × K) → ℕ)
    {a b : Cell} (h1 : OpenStep C is3D a b) (h2 : LowRisk C risk b ∨ (b = t ∧ ∃ r, risk b = some r)) :
    ∃ c, StepTo (oldProblem sc C risk is3D t pick) a b c := by
  have hm := (openNeighbors_step C is3D a b).mpr h1
  obtain ⟨r, hr⟩ : ∃ r, risk b = some r := by
    rcases h2 with ⟨r, hr, _⟩ | ⟨_, h⟩
    · exact ⟨r, hr⟩
    · exact h
  have hf : ∃ p, (openNeighbors C a is3D).find? (fun p => decide (p.1 = b)) = some p := by
    obtain ⟨p, hp, hpb⟩ := List.mem_map.mp hm
    rw [← Option.isSome_iff_exists, List.find?_isSome]
    exact ⟨p, hp, decide_eq_true hpb⟩
  obtain ⟨p, hp⟩ := hf
  refine ⟨p.2 + C.riskFactor * r, b, hm, ?_, rfl, ?_⟩
  · show (!oldSkips C risk t b) = true
    unfold oldSkips
    rw [hr]
    rcases h2 with ⟨r', hr', hle⟩ | ⟨hbt, _⟩
    · rw [hr, Option.some_inj] at hr'
      subst hr'
      have : ¬ C.riskFactor * C.maxCellRisk < C.riskFactor * r := not_lt.mpr hle
      simp [this]
    · simp [hbt]
  · show oldCost C risk is3D a b = _
    unfold oldCost
    rw [hp, hr]

theorem chain_cost {P : Problem Cell Cell K} {R : Cell → Cell → Prop} (h : ∀ a b, R a b → ∃ c, StepTo P a b c) :
    ∀ (l : List Cell) (a : Cell), (a :: l).IsChain R → ∃ t, PathCost P (a :: l) t
  | [], a, _ => ⟨0, PathCost.single a⟩
  | b :: l, a, hc => by
      rw [List.isChain_cons_cons] at hc
      obtain ⟨c, hs⟩ := h a b hc.1
      obtain ⟨t, ht⟩ := chain_cost h l b hc.2
      exact ⟨c + t, PathCost.cons hs ht⟩

theorem old_reach_low {C : OldCfg K} {risk : Cell → Option K} (sc : K) (is3D : Bool) (s t : Cell)
    (pick : List ((Cell × Bool) × K) → ℕ) {a : Cell} {c : K} (h : Reach (oldProblem sc C risk is3D t pick) s a c) :
    a = s ∨ a = t ∨ LowRisk C risk a := by
  cases h with
  | start => exact Or.inl rfl
  | @step b _ t0 c0 _ hs =>
      obtain ⟨v, h1, h2, h3, h4⟩ := hs
      have hv : v = a := h3
      subst hv
      by_cases hvt : v = t
      · exact Or.inr (Or.inl hvt)
      · right; right
        have h2' : (!oldSkips C risk t v) = true := h2
        have h4' : oldCost C risk is3D b v = some c0 := h4
        unfold oldCost at h4'
        unfold oldSkips at h2'
        cases hr : risk v with
        | none => rw [hr] at h4'; revert h4'; cases (openNeighbors C b is3D).find? (fun p => decide (p.1 = v)) <;> simp
        | some r =>
            refine ⟨r, hr, ?_⟩
            rw [hr] at h2'
            by_contra hlt
            rw [not_le] at hlt
            simp [hlt, hvt] at h2'

/-- **C76**: the cell search comes to an end, and if it reports failure then there is no route from the start to the target
over cells that are not too risky - unless it has looked at as many different cells as it may, all of them the start or low
risk. -/
theorem C76_cell_search_complete {C : OldCfg K} {risk : Cell → Option K} (h : GoodOld C risk) (sc : K) (is3D : Bool) (s t parent : Cell)
    (pick : List ((Cell × Bool) × K) → ℕ) (max : ℕ) :
    (∃ n r, ∀ m, n ≤ m → findPathOld sc C risk is3D s t parent pick max m = some r) ∧
    ∀ n, findPathOld sc C risk is3D s t parent pick max n = some none →
      (¬ ∃ l, OpenRoute C risk is3D s t l) ∨
      ∃ cells : List Cell, cells.Nodup ∧ cells.length = max ∧ ∀ c ∈ cells, c = s ∨ LowRisk C risk c := by
  refine ⟨?_, ?_⟩
  · obtain ⟨n, r, hn⟩ := C53_terminates _ (old_nonneg h sc is3D t pick) s max
    exact ⟨n, r.1.map (fun l => parent :: l), fun m hm => by rw [findPathOld_eq h, hn m hm]; rfl⟩
  · intro n hf
    rw [findPathOld_eq h, Option.map_eq_some_iff] at hf
    obtain ⟨⟨o, it⟩, hf, ho⟩ := hf
    dsimp only at ho
    rw [Option.map_eq_none_iff] at ho
    subst ho
    by_cases hit : it < max
    · left
      rintro ⟨l, h1, h2, h3⟩
      refine C72_search_complete _ (old_nonneg h sc is3D t pick) (old_cong sc is3D t pick) s max n hf hit ?_
      cases l with
      | nil => exact absurd h1 (by simp)
      | cons a l =>
          obtain ⟨c, hc⟩ := chain_cost (fun a b hab => old_step sc is3D t pick hab.1 hab.2) l a h3
          exact ⟨a :: l, c, t, hc, h1, h2, decide_eq_true rfl⟩
    · right
      obtain ⟨keys, hk, hl⟩ := C72_effort _ (old_nonneg h sc is3D t pick) s max n hf
      have := C53_iterations _ s max n hf
      refine ⟨keys, hk.1, by omega, fun c hc => ?_⟩
      obtain ⟨a, tt, e, hg, hr⟩ := hk.2 c hc
      have e' : a = c := e
      subst e'
      have hne : a ≠ t := of_decide_eq_false hg
      rcases old_reach_low sc is3D s t pick hr with h1 | h1 | h1
      · exact Or.inl h1
      · exact absurd h1 hne
      · exact Or.inr h1

/-- **C76**: the last resort (cell size 1) reports failure only if one of its three legs has no route - up from the start, across
the layer of the maximum altitude, or down to the goal - or uses up its budget of cells; otherwise it reports a path. -/
theorem C76_fallback_complete {C : OldCfg K} {risk : Cell → Option K} (h : GoodOld C risk) (s t : Cell)
    (pick : List ((Cell × Bool) × K) → ℕ) (max : ℕ)
    (hup : ∃ l, OpenRoute C risk true s ⟨s.x, s.y, C.maxAltitude⟩ l)
    (hdown : ∃ l, OpenRoute C risk true ⟨t.x, t.y, C.maxAltitude⟩ t l)
    (hacross : ∃ l, OpenRoute C risk false ⟨s.x, s.y, C.maxAltitude⟩ ⟨t.x, t.y, C.maxAltitude⟩ l)
    (hfew : ∀ cells : List Cell, cells.Nodup → (∀ c ∈ cells, c = s ∨ c = ⟨s.x, s.y, C.maxAltitude⟩ ∨ c = ⟨t.x, t.y, C.maxAltitude⟩ ∨
      LowRisk C risk c) → cells.length < max) :
    ∃ n path, ∀ m, n ≤ m → find2DPath (1 : K) C risk s t pick max m = some (some path) := by
  have key : ∀ (is3D : Bool) (a b p : Cell), (∃ l, OpenRoute C risk is3D a b l) →
      (a = s ∨ a = ⟨s.x, s.y, C.maxAltitude⟩ ∨ a = ⟨t.x, t.y, C.maxAltitude⟩) →
      ∃ n path, ∀ m, n ≤ m → findPathOld (1 : K) C risk is3D a b p pick max m = some (some path) := by
    intro is3D a b p hr ha
    obtain ⟨⟨n, r, hn⟩, hfail⟩ := C76_cell_search_complete h 1 is3D a b p pick max
    cases r with
    | some path => exact ⟨n, path, hn⟩
    | none =>
        exfalso
        rcases hfail n (hn n le_rfl) with h1 | ⟨cells, h1, h2, h3⟩
        · exact h1 hr
        · have := hfew cells h1 (fun c hc => by
            rcases h3 c hc with rfl | h4
            · tauto
            · tauto)
          omega
  obtain ⟨n1, p1, h1⟩ := key true _ _ s hup (Or.inl rfl)
  obtain ⟨n2, p2, h2⟩ := key true _ _ ⟨t.x, t.y, C.maxAltitude⟩ hdown (Or.inr (Or.inr rfl))
  obtain ⟨n3, p3, h3⟩ := key false _ _ ⟨s.x, s.y, C.maxAltitude⟩ hacross (Or.inr (Or.inl rfl))
  refine ⟨n1 + n2 + n3, p1 ++ p3 ++ p2, fun m hm => ?_⟩
  unfold find2DPath
  dsimp only
  rw [aboveCell_eq, aboveCell_eq, h1 m (by omega), h2 m (by omega), h3 m (by omega)]

end

/-! ## Non-vacuity -/

/-- Only the cells of two columns and the layer between them are free. -/
def freeCells : List Cell := [⟨0, 0, 3⟩, ⟨0, 0, 4⟩, ⟨1, 0, 4⟩, ⟨1, 0, 3⟩]

/-- A small closed world. -/
def smallRisk (c : Cell) : Option ℚ := if c ∈ freeCells then some 0 else some 1

theorem smallRisk_good : GoodOld exOld smallRisk :=
  ⟨by norm_num [exOld], by norm_num [exOld], by norm_num [exOld], fun c r h => by
    unfold smallRisk at h
    split at h <;> rw [← Option.some_inj.mp h] <;> norm_num⟩

theorem smallRisk_low {c : Cell} (h : LowRisk exOld smallRisk c) : c ∈ freeCells := by
  obtain ⟨r, h1, h2⟩ := h
  by_contra hc
  unfold smallRisk at h1
  rw [if_neg hc, Option.some_inj] at h1
  subst h1
  norm_num [exOld] at h2

theorem smallRisk_low' {c : Cell} (h : c ∈ freeCells) : LowRisk exOld smallRisk c :=
  ⟨0, by unfold smallRisk; rw [if_pos h], by norm_num [exOld]⟩

theorem smallRisk_few {l : List Cell} (h : l.Nodup) (hl : ∀ c ∈ l, c ∈ freeCells) : l.length ≤ 4 := by
  have : l.Subperm freeCells := List.subperm_of_subset h (fun c hc => hl c hc)
  simpa [freeCells] using this.length_le

/-- all hypotheses of `C76_fallback_complete` hold in this world, with the start in one column and the goal in the other -/
example : ∃ n path, ∀ m, n ≤ m → find2DPath (1 : ℚ) exOld smallRisk ⟨0, 0, 3⟩ ⟨1, 0, 3⟩ pickMin 5 m = some (some path) := by
  refine C76_fallback_complete smallRisk_good _ _ _ _ ⟨[⟨0, 0, 3⟩, ⟨0, 0, 4⟩], rfl, rfl, ?_⟩ ⟨[⟨1, 0, 4⟩, ⟨1, 0, 3⟩], rfl, rfl, ?_⟩
    ⟨[⟨0, 0, 4⟩, ⟨1, 0, 4⟩], rfl, rfl, ?_⟩ ?_
  · refine List.isChain_pair.mpr ⟨Or.inr (Or.inl ⟨rfl, rfl, by decide⟩), Or.inl (smallRisk_low' (by decide))⟩
  · refine List.isChain_pair.mpr ⟨Or.inr (Or.inr ⟨rfl, rfl, by decide⟩), Or.inl (smallRisk_low' (by decide))⟩
  · refine List.isChain_pair.mpr ⟨Or.inl ⟨by decide, rfl⟩, Or.inl (smallRisk_low' (by decide))⟩
  · intro cells h1 h2
    refine Nat.lt_succ_of_le (smallRisk_few h1 (fun c hc => ?_))
    rcases h2 c hc with rfl | rfl | rfl | h3
    · decide
    · decide
    · decide
    · exact smallRisk_low h3

/-- the hypotheses of `C72_finds` hold for a search in the same world -/
example : ∃ n path it, ∀ m, n ≤ m →
    findSmoothPath (oldProblem 1 exOld smallRisk true ⟨1, 0, 3⟩ pickMin) ⟨0, 0, 3⟩ 5 m = some (some path, it) := by
  refine C72_finds _ (old_nonneg smallRisk_good 1 true _ pickMin) (old_cong 1 true _ pickMin) _ _ ?_ ?_
  · obtain ⟨c, hc⟩ := chain_cost (P := oldProblem 1 exOld smallRisk true ⟨1, 0, 3⟩ pickMin)
      (R := fun a b => OpenStep exOld true a b ∧ (LowRisk exOld smallRisk b ∨ (b = ⟨1, 0, 3⟩ ∧ ∃ r, smallRisk b = some r)))
      (fun a b hab => old_step 1 true ⟨1, 0, 3⟩ pickMin hab.1 hab.2) [⟨1, 0, 3⟩] ⟨0, 0, 3⟩
      (List.isChain_pair.mpr ⟨Or.inl ⟨by decide, rfl⟩, Or.inl (smallRisk_low' (by decide))⟩)
    exact ⟨_, c, ⟨1, 0, 3⟩, hc, rfl, rfl, rfl⟩
  · intro keys hk
    refine Nat.lt_succ_of_le (smallRisk_few hk.1 (fun c hc => ?_))
    obtain ⟨a, t, e, _, hr⟩ := hk.2 c hc
    have e' : a = c := e
    subst e'
    rcases old_reach_low 1 true _ _ pickMin hr with rfl | rfl | h3
    · decide
    · decide
    · exact smallRisk_low h3

end Global
end Avoidance
