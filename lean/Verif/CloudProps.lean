import Verif.Cloud
import Mathlib.Tactic.Linarith
import Mathlib.Algebra.Order.Field.Basic
import Mathlib.Algebra.Order.Ring.Rat
import Mathlib.Data.Rat.Cast.Order

/-!
# C15 – point-cloud sanitising
-/
set_option linter.unusedSectionVars false

namespace Avoidance
variable {K : Type*} [Field K] [LinearOrder K] [IsStrictOrderedRing K]

/-! ## Specification -/

/-- The point as numbers, when all three coordinates are finite. -/
def V3.finite? (p : V3 (Flt K)) : Option (V3 K) :=
  match p.x, p.y, p.z with
  | .fin x, .fin y, .fin z => some ⟨x, y, z⟩
  | _, _, _ => none

/-- A finite point as floats. -/
def V3.toFlt (p : V3 K) : V3 (Flt K) := ⟨.fin p.x, .fin p.y, .fin p.z⟩

/-- `o` is the extreme of `kept` for the strict order `better` on the coordinate `f`, among
points better than the sentinel `s`: absent iff no kept point beats the sentinel. -/
def IsExtreme (better : K → K → Prop) (f : V3 K → K) (s : K) (kept : List (V3 K)) :
    Option (V3 K) → Prop
  | none => ∀ q ∈ kept, ¬ better (f q) s
  | some p => p ∈ kept ∧ better (f p) s ∧ ∀ q ∈ kept, ¬ better (f q) (f p)

/-! ## Proof -/

omit [IsStrictOrderedRing K] in
theorem finite?_eq (p : V3 (Flt K)) : finitePoint p = true ↔ ∃ q : V3 K, p = q.toFlt := by
  rcases p with ⟨x, y, z⟩
  cases x <;> cases y <;> cases z <;>
    simp [finitePoint, Flt.isFinite, V3.toFlt, V3.ext_iff]
  exact ⟨⟨_, _, _⟩, rfl, rfl, rfl⟩

omit [LinearOrder K] [IsStrictOrderedRing K] in
theorem finite?_toFlt (q : V3 K) : V3.finite? q.toFlt = some q := rfl

omit [IsStrictOrderedRing K] in
theorem finite?_none {p : V3 (Flt K)} (h : ¬ finitePoint p = true) : V3.finite? p = none := by
  rcases p with ⟨x, y, z⟩
  cases x <;> cases y <;> cases z <;> simp_all [finitePoint, Flt.isFinite, V3.finite?]

/-- Invariant of one running extreme. -/
def TrackInv (R : K → K → Prop) (f : V3 K → K) (s : K) (kept : List (V3 K)) (t : Track K) : Prop :=
  (t = ⟨.fin s, -1⟩ ∧ ∀ q ∈ kept, ¬ R (f q) s) ∨
  (∃ (k : ℕ) (p : V3 K), kept[k]? = some p ∧ t = ⟨.fin (f p), k⟩ ∧ R (f p) s ∧
    ∀ q ∈ kept, ¬ R (f q) (f p))

theorem TrackInv.step {R : K → K → Prop} {better : Flt K → Flt K → Bool}
    (hb : ∀ a b : K, better (.fin a) (.fin b) = true ↔ R a b)
    (irr : ∀ a, ¬ R a a) (tr : ∀ a b c, R a b → R b c → R a c)
    {f : V3 K → K} {s : K} {kept : List (V3 K)} {t : Track K} (h : TrackInv R f s kept t)
    (q : V3 K) : TrackInv R f s (kept ++ [q]) (t.update better (.fin (f q)) kept.length) := by
  rcases h with ⟨rfl, h⟩ | ⟨k, p, hk, rfl, hs, h⟩
  · by_cases c : R (f q) s
    · right
      refine ⟨kept.length, q, by simp, by simp [Track.update, (hb _ _).2 c], c, ?_⟩
      intro r hr hR
      rcases List.mem_append.1 hr with hr | hr
      · exact h r hr (tr _ _ _ hR c)
      · simp only [List.mem_singleton] at hr; subst hr; exact irr _ hR
    · left
      refine ⟨?_, ?_⟩
      · unfold Track.update
        rw [if_neg]
        rw [hb]; exact c
      · intro r hr
        rcases List.mem_append.1 hr with hr | hr
        · exact h r hr
        · simp only [List.mem_singleton] at hr; subst hr; exact c
  · have hlt : k < kept.length := by
      by_contra hc
      rw [List.getElem?_eq_none (by omega)] at hk; simp at hk
    by_cases c : R (f q) (f p)
    · right
      refine ⟨kept.length, q, by simp, by simp [Track.update, (hb _ _).2 c], tr _ _ _ c hs, ?_⟩
      intro r hr hR
      rcases List.mem_append.1 hr with hr | hr
      · exact h r hr (tr _ _ _ hR c)
      · simp only [List.mem_singleton] at hr; subst hr; exact irr _ hR
    · right
      refine ⟨k, p, by rw [List.getElem?_append_left hlt]; exact hk, ?_, hs, ?_⟩
      · unfold Track.update
        rw [if_neg]
        rw [hb]; exact c
      · intro r hr
        rcases List.mem_append.1 hr with hr | hr
        · exact h r hr
        · simp only [List.mem_singleton] at hr; subst hr; exact c

/-- Loop invariant after `i` iterations. -/
structure SanInv (cloud : List (V3 (Flt K))) (i : ℕ) (s : SanState K) : Prop where
  len : s.points.length = cloud.length
  jle : s.j ≤ i
  rest : s.points.drop i = cloud.drop i
  kept : s.points.take s.j = ((cloud.take i).filterMap V3.finite?).map V3.toFlt
  jeq : s.j = ((cloud.take i).filterMap V3.finite?).length
  xmax : TrackInv (· > ·) V3.x (-9999) ((cloud.take i).filterMap V3.finite?) s.xmax
  ymax : TrackInv (· > ·) V3.y (-9999) ((cloud.take i).filterMap V3.finite?) s.ymax
  zmax : TrackInv (· > ·) V3.z (-9999) ((cloud.take i).filterMap V3.finite?) s.zmax
  xmin : TrackInv (· < ·) V3.x 9999 ((cloud.take i).filterMap V3.finite?) s.xmin
  ymin : TrackInv (· < ·) V3.y 9999 ((cloud.take i).filterMap V3.finite?) s.ymin
  zmin : TrackInv (· < ·) V3.z 9999 ((cloud.take i).filterMap V3.finite?) s.zmin

theorem sanInit_inv (cloud : List (V3 (Flt K))) : SanInv cloud 0 (sanInit cloud) := by
  constructor <;> simp [sanInit, TrackInv]

theorem sanStep_inv {cloud : List (V3 (Flt K))} {i : ℕ} {s : SanState K} (hi : i < cloud.length)
    (h : SanInv cloud i s) : SanInv cloud (i + 1) (sanStep s i) := by
  have hgt : ∀ a b : K, fgt (.fin a) (.fin b) = true ↔ a > b := by
    intro a b; simp [fgt, Flt.lt]
  have hlt : ∀ a b : K, Flt.lt (.fin a) (.fin b) = true ↔ a < b := by
    intro a b; simp [Flt.lt]
  have hget : s.points[i]? = some (cloud[i]) := by
    have h1 : s.points[i]? = (s.points.drop i)[0]? := by simp
    rw [h1, h.rest]; simp [hi]
  have htake : cloud.take (i + 1) = cloud.take i ++ [cloud[i]] := by
    rw [List.take_append_getElem]
  have hdrop : s.points.drop (i + 1) = cloud.drop (i + 1) := by
    rw [← List.drop_drop, ← List.drop_drop, h.rest]
  unfold sanStep
  rw [hget]
  by_cases c : finitePoint cloud[i] = true
  · obtain ⟨q, hq⟩ := (finite?_eq _).1 c
    simp only [if_pos c]
    have hf : (cloud.take (i + 1)).filterMap V3.finite?
        = (cloud.take i).filterMap V3.finite? ++ [q] := by
      rw [htake, List.filterMap_append]; simp [hq, finite?_toFlt]
    have irr : ∀ a : K, ¬ a < a := fun a => lt_irrefl a
    constructor
    · simp [h.len]
    · simp [h.jle]
    · dsimp only
      rw [List.drop_set]
      have : s.j < i + 1 := by have := h.jle; omega
      rw [if_pos this]; exact hdrop
    · dsimp only
      rw [hf, List.map_append, ← h.kept]
      have hj : s.j < s.points.length := by have := h.jle; have := h.len; omega
      rw [List.take_add_one, List.take_set_of_le (le_refl _)]
      simp [hj, hq]
    · dsimp only
      rw [hf]; simp [h.jeq]
    all_goals dsimp only; rw [hf, h.jeq, hq]
    · exact TrackInv.step hgt (fun a => lt_irrefl a) (fun a b c h1 h2 => lt_trans h2 h1) h.xmax q
    · exact TrackInv.step hgt (fun a => lt_irrefl a) (fun a b c h1 h2 => lt_trans h2 h1) h.ymax q
    · exact TrackInv.step hgt (fun a => lt_irrefl a) (fun a b c h1 h2 => lt_trans h2 h1) h.zmax q
    · exact TrackInv.step hlt (fun a => lt_irrefl a) (fun a b c h1 h2 => lt_trans h1 h2) h.xmin q
    · exact TrackInv.step hlt (fun a => lt_irrefl a) (fun a b c h1 h2 => lt_trans h1 h2) h.ymin q
    · exact TrackInv.step hlt (fun a => lt_irrefl a) (fun a b c h1 h2 => lt_trans h1 h2) h.zmin q
  · simp only [if_neg c]
    have hf : (cloud.take (i + 1)).filterMap V3.finite?
        = (cloud.take i).filterMap V3.finite? := by
      rw [htake, List.filterMap_append]; simp [finite?_none c]
    constructor
    · exact h.len
    · have := h.jle; omega
    · exact hdrop
    all_goals rw [hf]
    · exact h.kept
    · exact h.jeq
    · exact h.xmax
    · exact h.ymax
    · exact h.zmax
    · exact h.xmin
    · exact h.ymin
    · exact h.zmin

theorem san_inv (cloud : List (V3 (Flt K))) (i : ℕ) (hi : i ≤ cloud.length) :
    SanInv cloud i ((List.range i).foldl sanStep (sanInit cloud)) := by
  induction i with
  | zero => simpa using sanInit_inv cloud
  | succ n ih =>
    rw [List.range_succ, List.foldl_append]
    exact sanStep_inv (by omega) (ih (by omega))

theorem pushPick_spec {R : K → K → Prop} {f : V3 K → K} {s : K} {kept : List (V3 K)}
    {t : Track K} (h : TrackInv R f s kept t) :
    ∃ o : Option (V3 K), IsExtreme R f s kept o ∧
      pushPick (kept.map V3.toFlt) t = some (o.toList.map V3.toFlt) := by
  rcases h with ⟨rfl, h⟩ | ⟨k, p, hk, rfl, hs, h⟩
  · exact ⟨none, h, by simp [pushPick]⟩
  · refine ⟨some p, ⟨List.mem_of_getElem? hk, hs, h⟩, ?_⟩
    simp [pushPick, hk]

/-- **C15.** The cloud that remains is the sequence of points whose three coordinates are
finite, in their original order (none lost, none changed); the extreme points never read out
of bounds and are, in order x-max, y-max, z-max, x-min, y-min, z-min, the extremes of the kept
points beyond the ±9999 sentinels, each present exactly when such a point exists. -/
theorem C15_sanitise (cloud : List (V3 (Flt K))) :
    (removeNaNAndGetMaxima cloud).1 = (cloud.filterMap V3.finite?).map V3.toFlt ∧
    ∃ a b c d e f : Option (V3 K),
      IsExtreme (· > ·) V3.x (-9999) (cloud.filterMap V3.finite?) a ∧
      IsExtreme (· > ·) V3.y (-9999) (cloud.filterMap V3.finite?) b ∧
      IsExtreme (· > ·) V3.z (-9999) (cloud.filterMap V3.finite?) c ∧
      IsExtreme (· < ·) V3.x 9999 (cloud.filterMap V3.finite?) d ∧
      IsExtreme (· < ·) V3.y 9999 (cloud.filterMap V3.finite?) e ∧
      IsExtreme (· < ·) V3.z 9999 (cloud.filterMap V3.finite?) f ∧
      (removeNaNAndGetMaxima cloud).2 =
        some (([a, b, c, d, e, f].filterMap id).map V3.toFlt) := by
  have h := san_inv cloud cloud.length le_rfl
  have hk := h.kept
  have hx := h.xmax
  have hy := h.ymax
  have hz := h.zmax
  have hx' := h.xmin
  have hy' := h.ymin
  have hz' := h.zmin
  rw [List.take_length] at hk hx hy hz hx' hy' hz'
  refine ⟨hk, ?_⟩
  obtain ⟨a, ha, pa⟩ := pushPick_spec hx
  obtain ⟨b, hb, pb⟩ := pushPick_spec hy
  obtain ⟨c, hc, pc⟩ := pushPick_spec hz
  obtain ⟨d, hd, pd⟩ := pushPick_spec hx'
  obtain ⟨e, he, pe⟩ := pushPick_spec hy'
  obtain ⟨f, hf, pf⟩ := pushPick_spec hz'
  refine ⟨a, b, c, d, e, f, ha, hb, hc, hd, he, hf, ?_⟩
  unfold removeNaNAndGetMaxima
  simp only [hk, pa, pb, pc, pd, pe, pf, Option.bind_some]
  cases a <;> cases b <;> cases c <;> cases d <;> cases e <;> cases f <;> simp

/-- Every extreme handed out is one of the surviving (hence finite) points. -/
theorem C15_maxima_are_kept (cloud : List (V3 (Flt K))) :
    ∃ m, (removeNaNAndGetMaxima cloud).2 = some m ∧
      (∀ p ∈ m, p ∈ (removeNaNAndGetMaxima cloud).1 ∧ p ∈ cloud) ∧ m.length ≤ 6 := by
  obtain ⟨hk, a, b, c, d, e, f, ha, hb, hc, hd, he, hf, hm⟩ := C15_sanitise cloud
  refine ⟨_, hm, ?_, ?_⟩
  · intro p hp
    have key : ∀ q : V3 K, q ∈ cloud.filterMap V3.finite? → q.toFlt ∈ cloud := by
      intro q hq
      obtain ⟨r, hr, hrq⟩ := List.mem_filterMap.1 hq
      by_cases c : finitePoint r = true
      · obtain ⟨w, rfl⟩ := (finite?_eq _).1 c
        rw [finite?_toFlt] at hrq
        cases hrq; exact hr
      · rw [finite?_none c] at hrq; simp at hrq
    have ex : ∀ {R : K → K → Prop} {g : V3 K → K} {s : K} {o : Option (V3 K)} {q : V3 K},
        IsExtreme R g s (cloud.filterMap V3.finite?) o → o = some q →
        q ∈ cloud.filterMap V3.finite? := by
      intro R g s o q h1 h2; subst h2; exact h1.1
    obtain ⟨q, hq, rfl⟩ := List.mem_map.1 hp
    obtain ⟨o, ho, hoq⟩ := List.mem_filterMap.1 hq
    simp only [id] at hoq
    have hqk : q ∈ cloud.filterMap V3.finite? := by
      simp only [List.mem_cons, List.not_mem_nil, or_false] at ho
      rcases ho with rfl | rfl | rfl | rfl | rfl | rfl
      · exact ex ha hoq
      · exact ex hb hoq
      · exact ex hc hoq
      · exact ex hd hoq
      · exact ex he hoq
      · exact ex hf hoq
    exact ⟨by rw [hk]; exact List.mem_map_of_mem hqk, key q hqk⟩
  · rw [List.length_map]
    exact le_trans (List.length_filterMap_le _ _) (by simp)

/-- Non-vacuity: a cloud with a NaN, an infinite and two good points. -/
example : removeNaNAndGetMaxima (K := ℚ)
    [⟨.nan, .fin 1, .fin 2⟩, ⟨.fin 1, .fin 2, .fin 3⟩, ⟨.fin 0, .inf true, .fin 0⟩,
      ⟨.fin (-4), .fin 7, .fin 0⟩] =
    ([⟨.fin 1, .fin 2, .fin 3⟩, ⟨.fin (-4), .fin 7, .fin 0⟩],
      some [⟨.fin 1, .fin 2, .fin 3⟩, ⟨.fin (-4), .fin 7, .fin 0⟩, ⟨.fin 1, .fin 2, .fin 3⟩,
        ⟨.fin (-4), .fin 7, .fin 0⟩, ⟨.fin 1, .fin 2, .fin 3⟩, ⟨.fin (-4), .fin 7, .fin 0⟩]) := by
  decide +kernel

end Avoidance
