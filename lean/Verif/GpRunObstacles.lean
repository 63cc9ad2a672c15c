import Verif.GpRunProps
import Verif.GpMovesProps
import Verif.Cloud
import Verif.GpEdgeFinite

/-!
# C108: an obstacle seen by the global planner stays an obstacle

`depthCameraCallback` (global_planner_node.cpp 280-305) puts the cells of the points of a cloud into `occupied_`; nothing ever takes a
cell out again. How that enters the risks of later planning cycles, over all runs of the node.
-/

namespace Avoidance
namespace Global

set_option linter.unusedSectionVars false

noncomputable section

/-! ## The cells of a cloud -/

/-- The loop over the points of the transformed cloud, global_planner_node.cpp 292-299: only a NaN in x is tested. `none`: a coordinate that is not finite is
converted to an integer (`Cell(double, double, double)`, cell.cpp 6-9), which is undefined. -/
def depthCells (sc : ℝ) : List (Flt ℝ × Flt ℝ × Flt ℝ) → Option (List Cell)
  | [] => some []
  | (.nan, _, _) :: ps => depthCells sc ps
  | (.fin x, .fin y, .fin z) :: ps => (depthCells sc ps).map (cellOf sc ⟨x, y, z⟩ :: ·)
  | _ :: _ => none

/-- **C108**: the cells taken from a cloud are the cells that contain a point of it: a point belongs to the cell whose index in each axis is the number of whole cells below the
coordinate. -/
theorem C108_cloud_partial (sc : ℝ) (hsc : 0 < sc) (pts : List (Flt ℝ × Flt ℝ × Flt ℝ)) (cs : List Cell) (h : depthCells sc pts = some cs) (c : Cell) :
    c ∈ cs ↔ ∃ x y z : ℝ, (Flt.fin x, Flt.fin y, Flt.fin z) ∈ pts ∧ c.x * sc ≤ x ∧ x < (c.x + 1) * sc ∧ c.y * sc ≤ y ∧ y < (c.y + 1) * sc ∧
      c.z * sc ≤ z ∧ z < (c.z + 1) * sc := by
  have hcell : ∀ x y z : ℝ, c = cellOf sc ⟨x, y, z⟩ ↔ c.x * sc ≤ x ∧ x < (c.x + 1) * sc ∧ c.y * sc ≤ y ∧ y < (c.y + 1) * sc ∧
      c.z * sc ≤ z ∧ z < (c.z + 1) * sc := by
    intro x y z
    obtain ⟨cx, cy, cz⟩ := c
    have e : ∀ (k : ℤ) (a : ℝ), k = ⌊a / sc⌋ ↔ k * sc ≤ a ∧ a < (k + 1) * sc := by
      intro k a
      rw [eq_comm, Int.floor_eq_iff, le_div_iff₀ hsc, div_lt_iff₀ hsc]
    unfold cellOf
    rw [Cell.mk.injEq]
    dsimp only
    rw [e, e, e]
    tauto
  induction pts generalizing cs with
  | nil =>
      unfold depthCells at h
      obtain rfl := Option.some.inj h
      simp
  | cons p ps ih =>
      obtain ⟨px, py, pz⟩ := p
      unfold depthCells at h
      split at h
      · rename_i e; exact absurd e (by simp)
      · rename_i ps' e
        obtain ⟨e1, rfl⟩ := List.cons.inj e
        refine Iff.trans (ih cs h) ?_
        constructor
        · rintro ⟨x, y, z, h1, h2⟩; exact ⟨x, y, z, List.mem_cons_of_mem _ h1, h2⟩
        · rintro ⟨x, y, z, h1, h2⟩
          refine ⟨x, y, z, ?_, h2⟩
          rcases List.mem_cons.mp h1 with h1 | h1
          · rw [e1] at h1; exact absurd (Prod.mk.inj h1).1 (by simp)
          · exact h1
      · rename_i x y z ps' e
        obtain ⟨e1, rfl⟩ := List.cons.inj e
        rw [Option.map_eq_some_iff] at h
        obtain ⟨l, hl, rfl⟩ := h
        have hi : c ∈ l ↔ _ := ih l hl
        rw [List.mem_cons, hcell]
        refine Iff.trans (or_congr Iff.rfl hi) ?_
        constructor
        · rintro (h1 | ⟨x', y', z', h1, h2⟩)
          · exact ⟨x, y, z, by rw [e1]; exact List.mem_cons_self, h1⟩
          · exact ⟨x', y', z', List.mem_cons_of_mem _ h1, h2⟩
        · rintro ⟨x', y', z', h1, h2⟩
          rcases List.mem_cons.mp h1 with h1 | h1
          · rw [e1] at h1
            obtain ⟨h3, h4, h5⟩ : x' = x ∧ y' = y ∧ z' = z := by simpa using h1
            subst h3 h4 h5
            exact Or.inl h2
          · exact Or.inr ⟨x', y', z', h1, h2⟩
      · exact absurd h (by simp)

/-- **C108**: which clouds are taken: NaN points are skipped, but a point whose x is a number while another coordinate is not finite, or whose x is infinite, is undefined behaviour. -/
theorem C108_cloud_undefined_violated (sc : ℝ) (pts : List (Flt ℝ × Flt ℝ × Flt ℝ)) :
    depthCells sc pts = none ↔ ∃ p ∈ pts, p.1 ≠ .nan ∧ ¬ ∃ x y z, p = (.fin x, .fin y, .fin z) := by
  induction pts with
  | nil => unfold depthCells; simp
  | cons p ps ih =>
      obtain ⟨px, py, pz⟩ := p
      unfold depthCells
      split
      · rename_i e; exact absurd e (by simp)
      · rename_i e
        obtain ⟨e1, rfl⟩ := List.cons.inj e
        rw [ih, e1]
        simp
      · rename_i e
        obtain ⟨e1, rfl⟩ := List.cons.inj e
        rw [Option.map_eq_none_iff, ih, e1]
        simp
      · rename_i q ps' hn hf e
        obtain ⟨e1, rfl⟩ := List.cons.inj e
        refine iff_of_true rfl ⟨_, List.mem_cons_self, ?_, ?_⟩
        · intro h
          exact hn py pz (by rw [← e1, ← h])
        · rintro ⟨x, y, z, h⟩
          exact hf x y z (by rw [← e1, h])

/-- The hypothesis of `C108_cloud_partial` is met by a cloud with a NaN point and two points in different cells; the second theorem has both cases. -/
example : depthCells 1 [(.nan, .fin 1, .inf true), (.fin (5 / 2), .fin (-1 / 2), .fin 3)] = some [⟨2, -1, 3⟩] ∧
    depthCells 1 [(.fin 1, .nan, .fin 1)] = none := by
  constructor
  · have a : ⌊(5 / 2 : ℝ)⌋ = 2 := by rw [Int.floor_eq_iff]; norm_num
    have b : ⌊(-1 / 2 : ℝ)⌋ = -1 := by rw [Int.floor_eq_iff]; norm_num
    have c : ⌊(3 : ℝ)⌋ = 3 := by rw [Int.floor_eq_iff]; norm_num
    unfold depthCells depthCells depthCells cellOf
    simp only [div_one, Option.map_some, a, b, c]
  · unfold depthCells; rfl

/-! ## Runs -/

/-- The cloud of this callback has a point in the cell. -/
def SawObstacle (c : Cell) (e : Entry) : Prop := ∃ cs, e.ev = .obstacles cs ∧ c ∈ cs

/-- what a callback does to the world the risks are computed from -/
theorem gStep_world {sc : ℝ} {st st' : GlobalSt} {ev : GEvent} {out out'} (h : gStep sc st ev = some (st', out)) :
    (∀ c, st'.mem.world.occupied c = true ↔ st.mem.world.occupied c = true ∨ SawObstacle c ⟨st, ev, out'⟩) ∧
    (¬ TakesMap ⟨st, ev, out'⟩ → st'.mem.world.tree = st.mem.world.tree ∧ st'.mem.world.prob = st.mem.world.prob) ∧
    st'.mem.world.prob = st.mem.world.prob := by
  have noobs : (∀ cs, ev ≠ .obstacles cs) → ∀ c, ¬ SawObstacle c ⟨st, ev, out'⟩ := by
    rintro hne c ⟨cs, he, _⟩
    exact hne cs he
  have same : (∀ cs, ev ≠ .obstacles cs) → st'.mem.world = st.mem.world →
      (∀ c, st'.mem.world.occupied c = true ↔ st.mem.world.occupied c = true ∨ SawObstacle c ⟨st, ev, out'⟩) ∧
      (¬ TakesMap ⟨st, ev, out'⟩ → st'.mem.world.tree = st.mem.world.tree ∧ st'.mem.world.prob = st.mem.world.prob) ∧
      st'.mem.world.prob = st.mem.world.prob := by
    intro hne e
    rw [e]
    exact ⟨fun c => ⟨Or.inl, fun h => h.elim id fun h => absurd h (noobs hne c)⟩, fun _ => ⟨rfl, rfl⟩, rfl⟩
  cases ev with
  | position p => obtain ⟨rfl, _⟩ := Prod.mk.inj (Option.some.inj h); exact same (by simp) rfl
  | velocity v => obtain ⟨rfl, _⟩ := Prod.mk.inj (Option.some.inj h); exact same (by simp) rfl
  | obstacles cs =>
      obtain ⟨rfl, _⟩ := Prod.mk.inj (Option.some.inj h)
      refine ⟨fun c => ?_, fun _ => ⟨rfl, rfl⟩, rfl⟩
      unfold addObstacles SawObstacle
      dsimp only
      rw [Bool.or_eq_true, decide_eq_true_iff]
      constructor
      · rintro (h | h)
        · exact Or.inr ⟨cs, rfl, h⟩
        · exact Or.inl h
      · rintro (h | ⟨cs', h1, h2⟩)
        · exact Or.inr h
        · injection h1 with h1
          exact Or.inl (h1 ▸ h2)
  | reconfigure C fl ex mi =>
      obtain ⟨rfl, _⟩ := Prod.mk.inj (Option.some.inj h)
      exact ⟨fun c => ⟨Or.inl, fun h => h.elim id fun h => absurd h (noobs (by simp) c)⟩, fun _ => ⟨rfl, rfl⟩, rfl⟩
  | fcu v p => obtain ⟨rfl, _⟩ := Prod.mk.inj (Option.some.inj h); exact same (by simp) rfl
  | click x y => obtain ⟨rfl, _⟩ := Prod.mk.inj (Option.some.inj h); exact same (by simp) rfl
  | map t1 t2 t res =>
      unfold gStep at h
      dsimp only at h
      by_cases hm : t1 - st.lastMap < 1 / 5
      · have e : mapCallback st.lastMap t1 t2 = (st.lastMap, false) := by unfold mapCallback; rw [if_pos hm]
        rw [e, if_neg (by simp)] at h
        obtain ⟨rfl, _⟩ := Prod.mk.inj (Option.some.inj h)
        exact same (by simp) rfl
      · have e : mapCallback st.lastMap t1 t2 = (t2, true) := by unfold mapCallback; rw [if_neg hm]
        rw [e, if_pos rfl, Option.map_eq_some_iff] at h
        obtain ⟨m, hm2, h⟩ := h
        obtain ⟨rfl, _⟩ := Prod.mk.inj h
        cases t with
        | none => exact absurd hm2 (by unfold cacheStep; simp)
        | some t =>
            obtain rfl := Option.some.inj hm2
            refine ⟨fun c => ⟨Or.inl, fun h => h.elim id fun h => absurd h (noobs (by simp) c)⟩, fun hn => ?_, rfl⟩
            exact absurd ⟨t1, t2, _, res, rfl, not_lt.mp hm⟩ hn
  | plan f asked =>
      unfold gStep planTick at h
      dsimp only at h
      rw [Option.map_map, Option.map_eq_some_iff] at h
      obtain ⟨m, hm, h⟩ := h
      obtain ⟨rfl, _⟩ := Prod.mk.inj h
      exact same (by simp) (askAll_spec asked hm).1
  | command =>
      unfold gStep commandTick at h
      dsimp only at h
      split at h
      · exact absurd h (by simp)
      · rename_i r hq
        split at h
        · exact absurd h (by simp)
        · obtain ⟨rfl, _⟩ := Prod.mk.inj (Option.some.inj h)
          refine same (by simp) ?_
          show r.2.world = st.mem.world
          split at hq
          · obtain ⟨r1, r2⟩ := r
            exact (cachedRisk_spec hq).1
          · rw [← Option.some.inj hq]

/-- **C108**: nothing is forgotten and nothing invented: in every run of the node, whatever maps, goals and reconfigurations came in between, a cell counts as one in which an
obstacle was seen exactly if a cloud of this run had a point in it (or it counted so at the start). -/
theorem C108_kept_partial (sc : ℝ) (st0 : GlobalSt) {log : List Entry} {st : GlobalSt} (h : Run sc st0 log st) (c : Cell) :
    st.mem.world.occupied c = true ↔ st0.mem.world.occupied c = true ∨ ∃ e ∈ log, ∃ cs, e.ev = .obstacles cs ∧ c ∈ cs := by
  induction h with
  | start => simp
  | @step log st st' ev out hr hg hs ih =>
      rw [(gStep_world (out' := out) hs).1 c, ih]
      constructor
      · rintro ((h | ⟨e, he, h⟩) | h)
        · exact Or.inl h
        · exact Or.inr ⟨e, List.mem_append_left _ he, h⟩
        · exact Or.inr ⟨_, List.mem_append_right _ (List.mem_singleton.mpr rfl), h⟩
      · rintro (h | ⟨e, he, h⟩)
        · exact Or.inl (Or.inl h)
        · rcases List.mem_append.mp he with he | he
          · exact Or.inl (Or.inr ⟨e, he, h⟩)
          · rw [List.mem_singleton.mp he] at h
            exact Or.inr h

/-- between maps the map is the same -/
theorem run_tree {sc : ℝ} {st0 st : GlobalSt} {log : List Entry} (h : Run sc st0 log st) : ∀ {pre mid : List Entry}, log = pre ++ mid →
    (∀ e ∈ mid, ¬ TakesMap e) → (worldAt mid st).tree = st.mem.world.tree ∧ (worldAt mid st).prob = st.mem.world.prob := by
  induction h with
  | start =>
      intro pre mid h _
      obtain ⟨_, rfl⟩ := List.append_eq_nil_iff.mp h.symm
      exact ⟨rfl, rfl⟩
  | @step log st st' ev out hr hg hs ih =>
      intro pre mid h hm
      rcases List.eq_nil_or_concat mid with rfl | ⟨mid', x, rfl⟩
      · exact ⟨rfl, rfl⟩
      · rw [List.concat_eq_append, ← List.append_assoc] at h
        obtain ⟨h1, h2⟩ := List.append_inj' h rfl
        have h2 := (List.cons.inj h2).1
        subst h2
        have hx := hm ⟨st, ev, out⟩ (by rw [List.concat_eq_append]; exact List.mem_append_right _ (List.mem_singleton.mpr rfl))
        have hw := (gStep_world (out' := out) hs).2.1 hx
        obtain ⟨g1, g2⟩ := ih h1 (fun e he => hm e (by rw [List.concat_eq_append]; exact List.mem_append_left _ he))
        rw [hw.1, hw.2]
        cases mid' with
        | nil => exact ⟨rfl, rfl⟩
        | cons a l => exact ⟨g1, g2⟩

/-- **C108**: and it counts: once a cloud had a point in a cell above the ground and a map was taken after it, every risk of this cell used for planning, now and in every later
state, is at least the full combination of the prior of its altitude with what the current map says about the cell - never the reduced risk of ground explored and found free,
even if the map takes the cell for free - as long as the current map knows the cell. -/
theorem C108_charged_partial (sc : ℝ) (st0 : GlobalSt) (h0 : st0.mem.cache = fun _ => none) (hw : GoodWorld st0.mem.world) (hc : GoodCost st0.conf.cost)
    {log : List Entry} {st : GlobalSt} (h : Run sc st0 log st) (hs : ∀ e ∈ log, SaneEvent e.ev)
    (pre mid post : List Entry) (e m : Entry) (hl : log = pre ++ e :: mid ++ m :: post) (c : Cell) (he : ∃ cs, e.ev = .obstacles cs ∧ c ∈ cs) (hm : TakesMap m)
    (hz : 1 ≤ c.z) (t : Cell → Option ℝ) (ht : st.mem.world.tree = some t) (lo : ℝ) (hlo : t c = some lo) (r : ℝ) (hr : seenRisk sc st.mem c = some r) :
    altPrior sc c * st.mem.world.prob lo /
      (altPrior sc c * st.mem.world.prob lo + (1 - altPrior sc c) * (1 - st.mem.world.prob lo) + 1 / 10000) ≤ r := by
  obtain ⟨p, q, h1, h2, h3⟩ := C101_risk_since_map_partial sc st0 h0 h c r hr
  obtain ⟨g1, g2⟩ := run_tree h h1 h2
  -- the moment is after the map `m`, hence after `e`
  have hpre : ∃ x ∈ p, ∃ cs, x.ev = .obstacles cs ∧ c ∈ cs := by
    refine ⟨e, ?_, he⟩
    rw [h1] at hl
    rcases List.append_eq_append_iff.mp hl with ⟨a, ha1, ha2⟩ | ⟨a, ha1, ha2⟩
    · -- `m :: post` is a tail of `q`: impossible
      exact absurd hm (h2 m (by rw [ha2]; exact List.mem_append_right _ List.mem_cons_self))
    · rw [ha1]
      exact List.mem_append_left _ (List.mem_append_right _ List.mem_cons_self)
  have hW : GoodWorld (worldAt q st) ∧ (worldAt q st).occupied c = true := by
    cases q with
    | nil =>
        rw [List.append_nil] at h1
        subst h1
        exact ⟨(run_sane h hw hc hs).1, (C108_kept_partial sc st0 h c).mpr (Or.inr hpre)⟩
    | cons x l =>
        have hp := (run_prefix h h1).1
        exact ⟨(run_sane hp hw hc fun y hy => hs y (by rw [h1]; exact List.mem_append_left _ hy)).1,
          (C108_kept_partial sc st0 hp c).mpr (Or.inr hpre)⟩
  have hsingle := (C60_risk_law sc (worldAt q st) c hz t (g1.trans ht)).1 lo hlo (Or.inl hW.2)
  rw [g2] at hsingle
  rw [← hsingle]
  unfold cellRisk at h3
  rw [Option.map_eq_some_iff] at h3
  obtain ⟨l, _, rfl⟩ := h3
  have : 0 ≤ (l.map fun n => (worldAt q st).flow * singleRisk sc (worldAt q st) n).sum := by
    apply List.sum_nonneg
    intro x hx
    obtain ⟨n, _, rfl⟩ := List.mem_map.mp hx
    exact mul_nonneg hW.1.flow (C60_single_risk sc _ hW.1 n).1
  linarith

/-! ## What is not charged -/

theorem cachedRisk_keeps {sc : ℝ} {m m' : CacheSt ℝ} {c d : Cell} {x r : ℝ} (h : cachedRisk sc m d = some (x, m')) (hc : m.cache c = some r) :
    m'.cache c = some r := by
  unfold cachedRisk at h
  split at h
  · obtain ⟨_, rfl⟩ := Prod.mk.inj (Option.some.inj h)
    exact hc
  · rename_i hd
    rw [Option.map_eq_some_iff] at h
    obtain ⟨y, _, h⟩ := h
    obtain ⟨_, rfl⟩ := Prod.mk.inj h
    dsimp only
    rw [if_neg (fun e => by rw [e, hd] at hc; exact absurd hc (by simp))]
    exact hc

theorem askAll_keeps {sc : ℝ} {c : Cell} {r : ℝ} : ∀ (l : List Cell) {m m' : CacheSt ℝ}, askAll sc m l = some m' → m.cache c = some r → m'.cache c = some r
  | [], m, m', h, hc => by
      unfold askAll at h
      obtain rfl := Option.some.inj h
      exact hc
  | d :: l, m, m', h, hc => by
      unfold askAll at h
      split at h
      · exact absurd h (by simp)
      · rename_i q hq
        obtain ⟨x, m1⟩ := q
        exact askAll_keeps l h (cachedRisk_keeps hq hc)

theorem gStep_keeps {sc : ℝ} {st st' : GlobalSt} {ev : GEvent} {out out'} (h : gStep sc st ev = some (st', out)) (hn : ¬ TakesMap ⟨st, ev, out'⟩)
    {c : Cell} {r : ℝ} (hc : st.mem.cache c = some r) : st'.mem.cache c = some r := by
  cases ev with
  | position p => obtain ⟨rfl, _⟩ := Prod.mk.inj (Option.some.inj h); exact hc
  | velocity v => obtain ⟨rfl, _⟩ := Prod.mk.inj (Option.some.inj h); exact hc
  | obstacles cs => obtain ⟨rfl, _⟩ := Prod.mk.inj (Option.some.inj h); exact hc
  | reconfigure C fl ex mi => obtain ⟨rfl, _⟩ := Prod.mk.inj (Option.some.inj h); exact hc
  | fcu v p => obtain ⟨rfl, _⟩ := Prod.mk.inj (Option.some.inj h); exact hc
  | click x y => obtain ⟨rfl, _⟩ := Prod.mk.inj (Option.some.inj h); exact hc
  | map t1 t2 t res =>
      unfold gStep at h
      dsimp only at h
      by_cases hm : t1 - st.lastMap < 1 / 5
      · have e : mapCallback st.lastMap t1 t2 = (st.lastMap, false) := by unfold mapCallback; rw [if_pos hm]
        rw [e, if_neg (by simp)] at h
        obtain ⟨rfl, _⟩ := Prod.mk.inj (Option.some.inj h)
        exact hc
      · exact absurd ⟨t1, t2, t, res, rfl, not_lt.mp hm⟩ hn
  | plan f asked =>
      unfold gStep planTick at h
      dsimp only at h
      rw [Option.map_map, Option.map_eq_some_iff] at h
      obtain ⟨m, hm, h⟩ := h
      obtain ⟨rfl, _⟩ := Prod.mk.inj h
      exact askAll_keeps asked hm hc
  | command =>
      unfold gStep commandTick at h
      dsimp only at h
      split at h
      · exact absurd h (by simp)
      · rename_i q hq
        split at h
        · exact absurd h (by simp)
        · obtain ⟨rfl, _⟩ := Prod.mk.inj (Option.some.inj h)
          show q.2.cache c = some r
          split at hq
          · obtain ⟨x, m1⟩ := q
            exact cachedRisk_keeps hq hc
          · rw [← Option.some.inj hq]
            exact hc

/-- **C108** (violated until the next map): the risk of a cell that was asked for since the last map does not change until the next map is taken, whatever obstacles are seen
in it meanwhile: planning goes on with the old risk. -/
theorem C108_until_next_map_violated (sc : ℝ) (st0 : GlobalSt) {log : List Entry} {st : GlobalSt} (h : Run sc st0 log st) (c : Cell) (r : ℝ) :
    ∀ (pre mid : List Entry) (x : Entry), log = pre ++ x :: mid → x.st.mem.cache c = some r → (∀ e ∈ x :: mid, ¬ TakesMap e) → seenRisk sc st.mem c = some r := by
  have key : ∀ (pre mid : List Entry) (x : Entry), log = pre ++ x :: mid → x.st.mem.cache c = some r → (∀ e ∈ x :: mid, ¬ TakesMap e) →
      st.mem.cache c = some r := by
    induction h with
    | start => intro pre mid x h; exact absurd (congrArg List.length h) (by simp)
    | @step log st st' ev out hr hg hs ih =>
        intro pre mid x hl hx hn
        rcases List.eq_nil_or_concat mid with rfl | ⟨mid', y, rfl⟩
        · obtain ⟨h1, h2⟩ := List.append_inj' hl rfl
          have h2 := (List.cons.inj h2).1
          subst h2
          exact gStep_keeps hs (hn _ List.mem_cons_self) hx
        · rw [List.concat_eq_append, ← List.cons_append, ← List.append_assoc] at hl
          obtain ⟨h1, h2⟩ := List.append_inj' hl rfl
          have h2 := (List.cons.inj h2).1
          subst h2
          rw [List.concat_eq_append] at hn
          refine gStep_keeps hs (hn ⟨st, ev, out⟩ (by simp)) (ih pre mid' x h1 hx fun e he => hn e ?_)
          rcases List.mem_cons.mp he with rfl | he
          · exact List.mem_cons_self
          · exact List.mem_cons_of_mem _ (List.mem_append_left _ he)
  intro pre mid x h1 h2 h3
  unfold seenRisk cachedRisk
  rw [key pre mid x h1 h2 h3]
  rfl

/-- A run that sees an obstacle in the cell `c` and then takes the map `t`. -/
theorem seen_then_map (st0 : GlobalSt) (c : Cell) (t : Cell → Option ℝ) (res : ℝ) :
    Run 1 st0
      [⟨st0, .obstacles [c], none⟩,
       ⟨{ st0 with mem := addObstacles st0.mem [c] }, .map (st0.lastMap + 1) (st0.lastMap + 1) (some t) res, none⟩]
      { st0 with
        mem := ⟨{ (addObstacles st0.mem [c]).world with tree := some t, resolution := res }, fun _ => none⟩, lastMap := st0.lastMap + 1 } := by
  refine Run.step (log := [⟨st0, .obstacles [c], none⟩]) (Run.step (log := []) Run.start trivial rfl) trivial ?_
  unfold gStep
  dsimp only
  have e : mapCallback st0.lastMap (st0.lastMap + 1) (st0.lastMap + 1) = (st0.lastMap + 1, true) := by
    unfold mapCallback
    rw [if_neg (by norm_num)]
  rw [e, if_pos rfl]
  rfl

/-- **C108** (violated where the map knows nothing): from every state, after a cloud with a point in a cell above the ground and a map taken after it that does not know the cell,
the part of the cell in every risk is the fraction `explore` of the prior, as for any unknown cell: the obstacle that was seen does not count. -/
theorem C108_unknown_cell_violated (st0 : GlobalSt) (c : Cell) (hz : 1 ≤ c.z) (t : Cell → Option ℝ) (res : ℝ) (ht : t c = none) :
    ∃ log st, Run 1 st0 log st ∧ (∃ e m, log = [e, m] ∧ (∃ cs, e.ev = .obstacles cs ∧ c ∈ cs) ∧ TakesMap m) ∧
      st.mem.world.occupied c = true ∧ singleRisk 1 st.mem.world c = st0.mem.world.explore * altPrior 1 c := by
  refine ⟨_, _, seen_then_map st0 c t res, ⟨_, _, rfl, ⟨[c], rfl, by simp⟩, ⟨_, _, _, _, rfl, ?_⟩⟩, ?_, ?_⟩
  · dsimp only; norm_num
  · show (decide (c ∈ [c]) || st0.mem.world.occupied c) = true
    simp
  · exact (C60_risk_law (1 : ℝ) _ c hz t rfl).2.2 ht

/-- The hypotheses of `C108_charged_partial` are met by a run in which the map takes the cell for free (log-odds -1): the risk answered is the full one. -/
example (st0 : GlobalSt) (hr : ⌈st0.mem.world.robotRadius⌉ = 1) (c : Cell) : ∃ log st r, Run 1 st0 log st ∧
    (∃ e m, log = [] ++ e :: [] ++ m :: [] ∧ (∃ cs, e.ev = .obstacles cs ∧ c ∈ cs) ∧ TakesMap m) ∧
    st.mem.world.tree = some (fun _ => some (-1)) ∧ seenRisk 1 st.mem c = some r := by
  have hR := seen_then_map st0 c (fun _ => some (-1)) 1
  obtain ⟨r, hrr⟩ : ∃ r, cellRisk 1 { (addObstacles st0.mem [c]).world with tree := some (fun _ => some (-1)), resolution := 1 } c = some r := by
    unfold cellRisk
    have : ⌈(addObstacles st0.mem [c]).world.robotRadius / 1⌉ = 1 := by rw [div_one]; exact hr
    dsimp only
    rw [this, (C52_flow_neighbors c 1 (by norm_num)).2.1 rfl]
    exact ⟨_, rfl⟩
  refine ⟨_, _, r, hR, ⟨_, _, rfl, ⟨[c], rfl, by simp⟩, ⟨_, _, _, _, rfl, ?_⟩⟩, rfl, ?_⟩
  · dsimp only; norm_num
  · unfold seenRisk cachedRisk
    dsimp only
    rw [hrr]
    rfl

/-! ## What a step costs in a run -/

/-- **C83** in runs: in the searches of every planning cycle a step is charged its horizontal distance, its climb and descent, the risk answered, and the square of its turn -
twice that if it starts within 3 m of the cell of the reported position while the reported speed is above 1 m/s, once otherwise. -/
theorem C83_cost_in_run (sc : ℝ) (ρ : Cell → Option ℝ) (C : CostCfg) (st : GpSt ℝ) (radius : ℝ) (k : NodeKind) (t : GoalCell ℝ)
    (heur : List Node → Node → ℝ) (pick : List ((Node × Bool) × ℝ) → ℕ) (u v : Node) (r : ℝ) (hv : moveRisk sc ρ v = some r) :
    ∃ climb descent turn f : ℝ, climb = max (pos sc v.cell.z - pos sc u.cell.z) 0 ∧ descent = max (pos sc u.cell.z - pos sc v.cell.z) 0 ∧
      turn = (match k with
        | .withoutSmooth => 0
        | _ => u.xyRotation v + (if (u.cell.z = u.parent.z) = (v.cell.z = v.parent.z) then 0 else 1 / 2)) ∧
      ((u.cell.dist3D sc (cellOf sc st.pos) < 3 ∧ 1 < st.vel.norm → f = 2) ∧ (¬ (u.cell.dist3D sc (cellOf sc st.pos) < 3 ∧ 1 < st.vel.norm) → f = 1)) ∧
      (riskProblem sc radius ρ C (searchTurn sc st) k t heur pick).cost u v =
        some (u.cell.dist2D sc v.cell + C.up * climb + C.down * descent + C.riskFactor * r + f * (C.smooth * turn ^ 2)) := by
  refine ⟨_, _, _, if searchTurn sc st u.cell = true then 2 else 1, rfl, rfl, rfl, ⟨fun h => ?_, fun h => ?_⟩, ?_⟩
  · rw [if_pos]; unfold searchTurn; exact decide_eq_true h
  · rw [if_neg]; unfold searchTurn; simpa using h
  · show moveCost sc ρ C (searchTurn sc st) k u v = _
    unfold moveCost
    rw [hv, Option.map_some, Option.some_inj]
    unfold edgeDist
    have hx : (Xor (u.cell.z - u.parent.z = 0) (v.cell.z - v.parent.z = 0)) ↔ ¬ ((u.cell.z = u.parent.z) = (v.cell.z = v.parent.z)) := by
      rw [sub_eq_zero, sub_eq_zero, eq_iff_iff]
      unfold Xor
      tauto
    have hrot : u.rotation k v = (match k with
        | .withoutSmooth => 0
        | _ => u.xyRotation v + (if (u.cell.z = u.parent.z) = (v.cell.z = v.parent.z) then 0 else 1 / 2)) := by
      unfold Node.rotation
      cases k
      · dsimp only
        by_cases h : (u.cell.z = u.parent.z) = (v.cell.z = v.parent.z)
        · rw [if_pos h, if_neg (fun hh => hx.mp hh h), zero_add, add_zero]
        · rw [if_neg h, if_pos (hx.mpr h), add_comm]
      · rfl
      · dsimp only
        by_cases h : (u.cell.z = u.parent.z) = (v.cell.z = v.parent.z)
        · rw [if_pos h, if_neg (fun hh => hx.mp hh h), zero_add, add_zero]
        · rw [if_neg h, if_pos (hx.mpr h), add_comm]
    rw [hrot, neg_sub]

/-- The hypothesis of `C83_cost_in_run` is met: a step to the next cell with risk 1/10 in every cell has a risk. -/
example : ∃ r, moveRisk 1 (fun _ => some (1 / 10)) (⟨⟨1, 0, 3⟩, ⟨0, 0, 3⟩⟩ : Node) = some r := by
  have hlen : ((⟨⟨1, 0, 3⟩, ⟨0, 0, 3⟩⟩ : Node).cells (1 : ℝ)).length ≠ 0 := by
    rw [cells_eq, List.length_map]
    decide +kernel
  have hall : ∀ l : List Cell, ∃ x, l.mapM (fun _ => some (1 / 10 : ℝ)) = some x := by
    intro l
    induction l with
    | nil => exact ⟨_, rfl⟩
    | cons a l ih =>
        obtain ⟨x, hx⟩ := ih
        exact ⟨1 / 10 :: x, by rw [List.mapM_cons, hx]; rfl⟩
  obtain ⟨x, hx⟩ := hall ((⟨⟨1, 0, 3⟩, ⟨0, 0, 3⟩⟩ : Node).cells (1 : ℝ))
  unfold moveRisk
  rw [hx]
  exact ⟨_, if_neg hlen⟩

end

end Global
end Avoidance
