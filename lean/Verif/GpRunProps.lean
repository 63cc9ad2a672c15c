import Verif.GpRun
import Verif.GpFollowLaw
import Verif.GpStateMore
import Verif.GpReplanMore
import Verif.GpFallbackProps
import Verif.GpSimplifyProps

/-!
# C101: from the map to the setpoint - runs of the whole global planner
-/

namespace Avoidance
namespace Global

set_option linter.unusedSectionVars false

noncomputable section

/-- the search problem of C53 is the case of answers that agree with the map -/
theorem riskProblem_current (sc radius : ℝ) (W : RiskWorld ℝ) (C : CostCfg) (early : Cell → Bool) (k : NodeKind) (t : GoalCell ℝ)
    (heur : List Node → Node → ℝ) (pick : List ((Node × Bool) × ℝ) → ℕ) :
    riskProblem sc radius (cellRisk sc W) C early k t heur pick = plannerProblem sc radius W C early k t heur pick := rfl

/-! ## Which paths a planning cycle can find -/

/-- **Specification**: a step from the cell `a` to the cell `b` that is permitted with the answers `ρ`: `b` is below the maximum altitude, and the mean of the risks answered
for the cells between the two centres, times the distance of the centres, is below the maximum risk. -/
def StepOk (sc : ℝ) (ρ : Cell → Option ℝ) (C : CostCfg) (a b : Cell) : Prop :=
  ((b.z : ℝ) + 1 / 2) * sc < (C.maxAltitude : ℝ) ∧
  ∃ rs : List ℝ, ((⟨b, a⟩ : Node).cells sc).mapM ρ = some rs ∧ rs ≠ [] ∧ rs.sum / (rs.length : ℝ) * a.dist3D sc b < C.maxCellRisk

theorem mapM_length {f : Cell → Option ℝ} : ∀ {l : List Cell} {rs : List ℝ}, l.mapM f = some rs → rs.length = l.length
  | [], rs, h => by
      rw [List.mapM_nil] at h
      obtain rfl : [] = rs := Option.some.inj h
      rfl
  | c :: l, rs, h => by
      rw [List.mapM_cons] at h
      cases hc : f c with
      | none => rw [hc] at h; exact absurd h (by simp)
      | some r =>
          cases hl : l.mapM f with
          | none => rw [hc, hl] at h; exact absurd h (by simp)
          | some t =>
              rw [hc, hl] at h
              obtain rfl : r :: t = rs := Option.some.inj h
              rw [List.length_cons, List.length_cons, mapM_length hl]

theorem stepOk_of_legal {sc : ℝ} {ρ : Cell → Option ℝ} {C : CostCfg} {a b : Cell} (h : moveLegal sc ρ C ⟨b, a⟩) : StepOk sc ρ C a b := by
  obtain ⟨h1, r, hr, h2⟩ := h
  have e : pos sc b.z = ((b.z : ℝ) + 1 / 2) * sc := by unfold pos; ring
  rw [e] at h1
  refine ⟨h1, ?_⟩
  unfold moveRisk at hr
  cases hm : ((⟨b, a⟩ : Node).cells sc).mapM ρ with
  | none => rw [hm] at hr; exact absurd hr (by simp)
  | some l =>
      rw [hm] at hr
      dsimp only at hr
      have hlen : l.length = ((⟨b, a⟩ : Node).cells sc).length := mapM_length hm
      split at hr
      · exact absurd hr (by simp)
      · rename_i h0
        refine ⟨l, rfl, fun h => h0 (by rw [← hlen, h]; rfl), ?_⟩
        rw [hlen]
        have := Option.some.inj hr
        unfold Node.length at this
        rw [this]
        exact h2

/-- **Specification**: a path that was found by a search: from the parent of the start cell to the start cell and on; every step after the
start goes to a cell below the maximum altitude, the risk of the step (mean of the risks answered for the cells between the two centres, times its
length) is below the maximum, and (unless speed nodes are configured) it goes to a neighbour; the last cell is within the plan radius of
the goal. -/
def SafePath (sc : ℝ) (ρ : Cell → Option ℝ) (C : GConf) (s : Node) (t : GoalCell ℝ) (p : List Cell) : Prop :=
  ∃ rest, p = s.parent :: s.cell :: rest ∧
    (s.cell :: rest).IsChain (fun a b => StepOk sc ρ C.cost a b ∧ (C.replan.kind ≠ .speed → b ∈ a.neighbors)) ∧
    t.withinPlan sc ((s.cell :: rest).getLast (List.cons_ne_nil _ _))

/-- **Specification**: a path of the last resort (C76 says what these are). -/
def LastResort (sc : ℝ) (ρ : Cell → Option ℝ) (C : GConf) (s : Node) (t : GoalCell ℝ) (p : List Cell) : Prop :=
  ∃ factor pick m, find2DPath sc (C.old factor) ρ s.cell t.cell pick 5000 m = some (some p)

theorem moveRisk_nonneg (sc : ℝ) (ρ : Cell → Option ℝ) (hρ : ∀ c r, ρ c = some r → 0 ≤ r) (n : Node) (r : ℝ) (h : moveRisk sc ρ n = some r) : 0 ≤ r := by
  unfold moveRisk at h
  cases hm : (n.cells sc).mapM ρ with
  | none => rw [hm] at h; exact absurd h (by simp)
  | some l =>
      rw [hm] at h
      dsimp only at h
      split at h
      · exact absurd h (by simp)
      · rw [← Option.some_inj.mp h]
        have h1 : 0 ≤ l.sum := List.sum_nonneg (mapM_nonneg hρ hm)
        have h2 : 0 ≤ n.length sc := Real.sqrt_nonneg _
        positivity

theorem risk_nonneg (sc radius : ℝ) (ρ : Cell → Option ℝ) (hρ : ∀ c r, ρ c = some r → 0 ≤ r) (C : CostCfg) (hC : GoodCost C)
    (early : Cell → Bool) (k : NodeKind) (t : GoalCell ℝ) (heur : List Node → Node → ℝ) (pick : List ((Node × Bool) × ℝ) → ℕ) :
    NonnegCost (riskProblem sc radius ρ C early k t heur pick) := by
  intro u v c h
  have h' : moveCost sc ρ C early k u v = some c := h
  unfold moveCost at h'
  rw [Option.map_eq_some_iff] at h'
  obtain ⟨r, hr, rfl⟩ := h'
  have h1 := edgeDist_nonneg sc C hC u.cell v.cell
  have h2 := mul_nonneg hC.riskFactor (moveRisk_nonneg sc ρ hρ v r hr)
  have h3 : 0 ≤ (if early u.cell = true then (2 : ℝ) else 1) * (C.smooth * (u.rotation k v) ^ 2) := by
    apply mul_nonneg
    · split <;> norm_num
    · exact mul_nonneg hC.smooth (sq_nonneg _)
  linarith

theorem risk_step {sc radius : ℝ} {ρ : Cell → Option ℝ} {C : CostCfg} {early : Cell → Bool} {k : NodeKind} {t : GoalCell ℝ}
    {heur : List Node → Node → ℝ} {pick : List ((Node × Bool) × ℝ) → ℕ} {a b : Node} {c : ℝ}
    (h : StepTo (riskProblem sc radius ρ C early k t heur pick) a b c) :
    moveLegal sc ρ C ⟨b.cell, a.cell⟩ ∧ (k ≠ .speed → b.cell ∈ a.cell.neighbors) := by
  obtain ⟨v, h1, h2, h3, _⟩ := h
  have h1' : v ∈ nodeNeighbors sc radius k a := h1
  have hp := nodeNeighbors_parent sc radius k a v h1'
  have hc : v.cell = b.cell := nodeKey_cell (k := k) h3
  have hl : moveLegal sc ρ C v := by
    classical
    exact of_decide_eq_true h2
  constructor
  · rw [← hc, ← hp]
    exact hl
  · intro hk
    rw [← hc]
    unfold nodeNeighbors at h1'
    cases k <;> dsimp only at h1'
    · rw [List.mem_map] at h1'; obtain ⟨w, hw, rfl⟩ := h1'; exact hw
    · rw [List.mem_map] at h1'; obtain ⟨w, hw, rfl⟩ := h1'; exact hw
    · exact absurd rfl hk

/-- what one search reports -/
theorem risk_path {sc radius : ℝ} {ρ : Cell → Option ℝ} (hρ : ∀ c r, ρ c = some r → 0 ≤ r) {C : CostCfg} (hC : GoodCost C) {early : Cell → Bool}
    {k : NodeKind} {t : GoalCell ℝ} {heur : List Node → Node → ℝ} {pick : List ((Node × Bool) × ℝ) → ℕ} (s : Node) (max n : ℕ) {path : List Node}
    {it : ℕ} (h : findSmoothPath (riskProblem sc radius ρ C early k t heur pick) s max n = some (some path, it)) :
    ∃ rest, pathCells s path = s.parent :: s.cell :: rest ∧
      (s.cell :: rest).IsChain (fun a b => StepOk sc ρ C a b ∧ (k ≠ .speed → b ∈ a.neighbors)) ∧
      t.withinPlan sc ((s.cell :: rest).getLast (List.cons_ne_nil _ _)) := by
  obtain ⟨⟨c, hpc⟩, hhd, ⟨g, hlast, hgoal⟩, _⟩ := C53_path_legal _ (risk_nonneg sc radius ρ hρ C hC early k t heur pick) s max n h
  cases path with
  | nil => exact absurd hhd (by simp)
  | cons s' rest =>
      rw [List.head?_cons, Option.some_inj] at hhd
      subst hhd
      refine ⟨rest.map Node.cell, rfl, ?_, ?_⟩
      · exact isChain_map_of (f := Node.cell) (S := fun a b => StepOk sc ρ C a b ∧ (k ≠ .speed → b ∈ a.neighbors)) (fun a b hab => by
          obtain ⟨c, hab⟩ := hab
          exact ⟨stepOk_of_legal (risk_step hab).1, (risk_step hab).2⟩) hpc.isChain
      · have hg : t.withinPlan sc g.cell := of_decide_eq_true hgoal
        have e : (s'.cell :: rest.map Node.cell).getLast (List.cons_ne_nil _ _) = g.cell := by
          have h1 : ((s' :: rest).map Node.cell).getLast? = some g.cell := by
            rw [List.getLast?_map, hlast]; rfl
          rw [List.map_cons] at h1
          rw [List.getLast?_eq_some_getLast (List.cons_ne_nil _ _), Option.some_inj] at h1
          exact h1
        rw [e]; exact hg

/-- what `findPath` returns -/
theorem found_path {sc : ℝ} {ρ : Cell → Option ℝ} (hρ : ∀ c r, ρ c = some r → 0 ≤ r) {C : GConf} (hC : GoodCost C.cost) {st : GpSt ℝ} {f : Found ℝ}
    (hf : IsFound sc ρ C st f) {p : List Cell} (hp : f.path = some p) :
    SafePath sc ρ C (startNode sc st.pos st.vel C.searchTime) st.goal p ∨
    LastResort sc ρ C (startNode sc st.pos st.vel C.searchTime) st.goal p := by
  obtain ⟨search, fallback, n, h1, h2, h3⟩ := hf
  obtain ⟨r, hr, _, h4⟩ := C55_result C.replan search fallback st.maxIter n f h3
  obtain ⟨hS, hb, _⟩ := C55_schedule C.replan search st.maxIter n r hr
  rcases h4 with ⟨q, hq, hfq, _⟩ | ⟨hnil, _, hfb, _⟩
  · left
    rw [hp] at hfq
    obtain rfl := Option.some.inj hfq
    have hmem := List.mem_of_getLast? hq
    rw [List.mem_filterMap] at hmem
    obtain ⟨c, hc, hcp⟩ := hmem
    obtain ⟨heur, pick, m, o, it, g1, g2⟩ := h1 c
    rw [g2] at hcp
    cases o with
    | none => exact absurd hcp (by simp)
    | some l =>
        have hpl : pathCells (startNode sc st.pos st.vel C.searchTime) l = p := Option.some.inj hcp
        obtain ⟨rest, k1, k2, k3⟩ := risk_path hρ hC _ c.budget m g1
        refine ⟨rest, by rw [← hpl, k1], ?_, k3⟩
        refine k2.imp (fun a b hab => ⟨hab.1, fun hk => hab.2 ?_⟩)
        obtain ⟨i, hi⟩ := List.getElem?_of_mem hc
        rw [(hS i c hi).2.2.1]
        split
        · simp
        · exact hk
  · right
    rw [hnil] at hb
    obtain ⟨pick, m, g⟩ := h2 r hr hb
    rw [← hfb, hp] at g
    exact ⟨r.factor, pick, m, g⟩

theorem findPathOld_two {sc : ℝ} {C : OldCfg ℝ} {risk : Cell → Option ℝ} {is3D : Bool} {s t parent : Cell}
    {pick : List ((Cell × Bool) × ℝ) → ℕ} {max n : ℕ} {p : List Cell} (h : findPathOld sc C risk is3D s t parent pick max n = some (some p)) :
    ∃ rest, p = parent :: s :: rest := by
  unfold findPathOld at h
  split at h
  · exact absurd h (by simp)
  · exact absurd h (by simp)
  · rw [Option.map_eq_some_iff] at h
    obtain ⟨b, _, hb⟩ := h
    refine ⟨b.reverse, ?_⟩
    rw [← Option.some.inj hb]
    simp

/-- every path found has at least two cells -/
theorem found_two {sc : ℝ} {ρ : Cell → Option ℝ} (hρ : ∀ c r, ρ c = some r → 0 ≤ r) {C : GConf} (hC : GoodCost C.cost) {st : GpSt ℝ} {f : Found ℝ}
    (hf : IsFound sc ρ C st f) {p : List Cell} (hp : f.path = some p) : ∃ a b rest, p = a :: b :: rest := by
  rcases found_path hρ hC hf hp with ⟨rest, h, _⟩ | ⟨factor, pick, m, h⟩
  · exact ⟨_, _, rest, h⟩
  · unfold find2DPath at h
    dsimp only at h
    split at h
    · rename_i up down vert h1 h2 h3
      obtain ⟨rest, hr⟩ := findPathOld_two h1
      refine ⟨(startNode sc st.pos st.vel C.searchTime).cell, (startNode sc st.pos st.vel C.searchTime).cell, rest ++ vert ++ down, ?_⟩
      rw [← Option.some.inj (Option.some.inj h), hr]
      simp
    · exact absurd h (by simp)
    · exact absurd h (by simp)

/-! ## The record of a run -/

/-- **Specification**: the path found by a planning cycle: if the cycle searches, what `findPath` returned. -/
def foundIn (sc : ℝ) (e : Entry) : Option (List Cell) :=
  open Classical in
  match e.ev with
  | .plan f _ => if searches sc e.st then f.path else none
  | _ => none

/-- **Specification**: the last path found, with the cycle that found it. -/
def lastFound (sc : ℝ) (log : List Entry) : Option (Entry × List Cell) :=
  (log.filterMap fun e => (foundIn sc e).map fun p => (e, p)).getLast?

/-- **Specification**: a map message that is taken: at least 0.2 s after the last one taken. -/
def TakesMap (e : Entry) : Prop := ∃ t1 t2 t res, e.ev = .map t1 t2 t res ∧ 1 / 5 ≤ t1 - e.st.lastMap

/-- **Specification**: the world (map, obstacle points, parameters of the risk) at the beginning of the last part `mid` of the record of a run that is now in
`st`. -/
def worldAt (mid : List Entry) (st : GlobalSt) : RiskWorld ℝ := match mid with
  | [] => st.mem.world
  | e :: _ => e.st.mem.world

/-- **Specification**: reconfigurations stay in the ranges of cfg/GlobalPlannerNode.cfg. -/
def SaneEvent : GEvent → Prop
  | .reconfigure C flow explore _ => GoodCost C.cost ∧ 0 ≤ flow ∧ 0 ≤ explore ∧ explore ≤ 1
  | _ => True

theorem run_prefix {sc : ℝ} {st0 st : GlobalSt} {log : List Entry} (h : Run sc st0 log st) : ∀ {pre post : List Entry} {e : Entry},
    log = pre ++ e :: post → Run sc st0 pre e.st ∧ Genuine sc e.st e.ev ∧ ∃ st', gStep sc e.st e.ev = some (st', e.out) := by
  induction h with
  | start => intro pre post e h; exact absurd h (by simp)
  | @step log st st' ev out hr hg hs ih =>
      intro pre post e h
      rcases List.eq_nil_or_concat post with rfl | ⟨l, x, rfl⟩
      · have := List.append_inj' h rfl
        obtain ⟨rfl, h2⟩ := this
        have h3 := (List.cons.inj h2).1
        rw [← h3]
        exact ⟨hr, hg, st', hs⟩
      · rw [List.concat_eq_append, ← List.cons_append, ← List.append_assoc] at h
        have := List.append_inj' h rfl
        exact ih this.1

/-! ## The risks used -/

theorem cachedRisk_spec {sc : ℝ} {m m' : CacheSt ℝ} {c : Cell} {r : ℝ} (h : cachedRisk sc m c = some (r, m')) :
    m'.world = m.world ∧ (∀ d x, m'.cache d = some x → m.cache d = some x ∨ cellRisk sc m.world d = some x) ∧
    (m.cache c = some r ∨ cellRisk sc m.world c = some r) := by
  unfold cachedRisk at h
  cases hc : m.cache c with
  | some x =>
      rw [hc] at h
      dsimp only at h
      obtain ⟨rfl, rfl⟩ := Prod.mk.inj (Option.some.inj h)
      exact ⟨rfl, fun d y hy => Or.inl hy, Or.inl rfl⟩
  | none =>
      rw [hc] at h
      dsimp only at h
      rw [Option.map_eq_some_iff] at h
      obtain ⟨x, hx, h⟩ := h
      obtain ⟨rfl, rfl⟩ := Prod.mk.inj h
      refine ⟨rfl, fun d y hy => ?_, Or.inr hx⟩
      dsimp only at hy
      by_cases hd : d = c
      · rw [if_pos hd] at hy
        obtain rfl := Option.some.inj hy
        rw [hd]
        exact Or.inr hx
      · rw [if_neg hd] at hy
        exact Or.inl hy

theorem askAll_spec {sc : ℝ} : ∀ (l : List Cell) {m m' : CacheSt ℝ}, askAll sc m l = some m' →
    m'.world = m.world ∧ ∀ d x, m'.cache d = some x → m.cache d = some x ∨ cellRisk sc m.world d = some x
  | [], m, m', h => by
      unfold askAll at h
      obtain rfl := Option.some.inj h
      exact ⟨rfl, fun _ _ h => Or.inl h⟩
  | c :: l, m, m', h => by
      unfold askAll at h
      split at h
      · exact absurd h (by simp)
      · rename_i r hr
        obtain ⟨r1, r2⟩ := r
        obtain ⟨h1, h2, _⟩ := cachedRisk_spec hr
        obtain ⟨h3, h4⟩ := askAll_spec l h
        refine ⟨h3.trans h1, fun d x hx => ?_⟩
        rcases h4 d x hx with hx | hx
        · exact h2 d x hx
        · right; dsimp only at hx; rwa [h1] at hx

/-- what a callback does to the answers remembered -/
theorem gStep_cache {sc : ℝ} {st st' : GlobalSt} {ev : GEvent} {out out'} (h : gStep sc st ev = some (st', out)) :
    (TakesMap ⟨st, ev, out'⟩ ∧ st'.mem.cache = fun _ => none) ∨
    (¬ TakesMap ⟨st, ev, out'⟩ ∧ ∀ d x, st'.mem.cache d = some x → st.mem.cache d = some x ∨ cellRisk sc st.mem.world d = some x) := by
  have nomap : (∀ t1 t2 t res, ev ≠ .map t1 t2 t res) → ¬ TakesMap ⟨st, ev, out'⟩ := by
    rintro hne ⟨t1, t2, t, res, he, _⟩
    exact hne t1 t2 t res he
  cases ev with
  | position p =>
      obtain ⟨rfl, _⟩ := Prod.mk.inj (Option.some.inj h)
      exact Or.inr ⟨nomap (by simp), fun _ _ h => Or.inl h⟩
  | velocity v =>
      obtain ⟨rfl, _⟩ := Prod.mk.inj (Option.some.inj h)
      exact Or.inr ⟨nomap (by simp), fun _ _ h => Or.inl h⟩
  | obstacles cs =>
      obtain ⟨rfl, _⟩ := Prod.mk.inj (Option.some.inj h)
      exact Or.inr ⟨nomap (by simp), fun _ _ h => Or.inl h⟩
  | reconfigure C fl ex mi =>
      obtain ⟨rfl, _⟩ := Prod.mk.inj (Option.some.inj h)
      exact Or.inr ⟨nomap (by simp), fun _ _ h => Or.inl h⟩
  | fcu v p =>
      obtain ⟨rfl, _⟩ := Prod.mk.inj (Option.some.inj h)
      exact Or.inr ⟨nomap (by simp), fun _ _ h => Or.inl h⟩
  | click x y =>
      obtain ⟨rfl, _⟩ := Prod.mk.inj (Option.some.inj h)
      exact Or.inr ⟨nomap (by simp), fun _ _ h => Or.inl h⟩
  | map t1 t2 t res =>
      unfold gStep at h
      dsimp only at h
      by_cases hm : t1 - st.lastMap < 1 / 5
      · have e : mapCallback st.lastMap t1 t2 = (st.lastMap, false) := by unfold mapCallback; rw [if_pos hm]
        rw [e, if_neg (by simp)] at h
        obtain ⟨rfl, _⟩ := Prod.mk.inj (Option.some.inj h)
        refine Or.inr ⟨?_, fun _ _ h => Or.inl h⟩
        rintro ⟨a, b, c, d, he, hle⟩
        injection he with h1
        dsimp only at hle
        rw [← h1] at hle
        exact absurd hm (not_lt.mpr hle)
      · have e : mapCallback st.lastMap t1 t2 = (t2, true) := by unfold mapCallback; rw [if_neg hm]
        rw [e, if_pos rfl, Option.map_eq_some_iff] at h
        obtain ⟨m, hm2, h⟩ := h
        obtain ⟨rfl, _⟩ := Prod.mk.inj h
        refine Or.inl ⟨⟨t1, t2, t, res, rfl, not_lt.mp hm⟩, ?_⟩
        cases t with
        | none => exact absurd hm2 (by unfold cacheStep; simp)
        | some t => rw [← Option.some.inj hm2]
  | plan f asked =>
      refine Or.inr ⟨nomap (by simp), ?_⟩
      unfold gStep planTick at h
      dsimp only at h
      rw [Option.map_map, Option.map_eq_some_iff] at h
      obtain ⟨m, hm, h⟩ := h
      obtain ⟨rfl, _⟩ := Prod.mk.inj h
      exact (askAll_spec asked hm).2
  | command =>
      refine Or.inr ⟨nomap (by simp), ?_⟩
      unfold gStep commandTick at h
      dsimp only at h
      by_cases hs : st.conf.speed.speedupHeuristics = true
      · rw [if_pos hs] at h
        cases hq : cachedRisk sc st.mem (cellOf sc st.fl.here.position) with
        | none => rw [hq] at h; exact absurd h (by simp)
        | some r =>
            rw [hq] at h
            dsimp only at h
            cases hv : commandedSpeed st.conf.speed r.1 with
            | none => rw [hv] at h; exact absurd h (by simp)
            | some v =>
                rw [hv] at h
                obtain ⟨rfl, _⟩ := Prod.mk.inj (Option.some.inj h)
                obtain ⟨r1, r2⟩ := r
                exact (cachedRisk_spec hq).2.1
      · rw [if_neg hs] at h
        dsimp only at h
        cases hv : commandedSpeed st.conf.speed 0 with
        | none => rw [hv] at h; exact absurd h (by simp)
        | some v =>
            rw [hv] at h
            obtain ⟨rfl, _⟩ := Prod.mk.inj (Option.some.inj h)
            exact fun _ _ h => Or.inl h

/-- **C101**: in every run, every risk answered to the planner is the risk of the cell in a world (map, obstacle points, parameters) that the node
had at some moment since the last map it took: nothing older is ever used. -/
theorem C101_risk_since_map_partial (sc : ℝ) (st0 : GlobalSt) (h0 : st0.mem.cache = fun _ => none) {log : List Entry} {st : GlobalSt}
    (h : Run sc st0 log st) (c : Cell) (r : ℝ) (hr : seenRisk sc st.mem c = some r) :
    ∃ pre mid, log = pre ++ mid ∧ (∀ e ∈ mid, ¬ TakesMap e) ∧ cellRisk sc (worldAt mid st) c = some r := by
  have key : ∀ {log : List Entry} {st : GlobalSt}, Run sc st0 log st → ∀ c r, st.mem.cache c = some r →
      ∃ pre mid, log = pre ++ mid ∧ (∀ e ∈ mid, ¬ TakesMap e) ∧ cellRisk sc (worldAt mid st) c = some r := by
    intro log st h
    induction h with
    | start => intro c r h; rw [h0] at h; exact absurd h (by simp)
    | @step log st st' ev out hr hg hs ih =>
        intro c r hc
        rcases gStep_cache (out' := out) hs with ⟨_, h2⟩ | ⟨h1, h2⟩
        · rw [h2] at hc; exact absurd hc (by simp)
        · rcases h2 c r hc with h3 | h3
          · obtain ⟨pre, mid, g1, g2, g3⟩ := ih c r h3
            refine ⟨pre, mid ++ [⟨st, ev, out⟩], by rw [g1, List.append_assoc], ?_, ?_⟩
            · intro e he
              rcases List.mem_append.mp he with he | he
              · exact g2 e he
              · rw [List.mem_singleton.mp he]; exact h1
            · cases mid with
              | nil => exact g3
              | cons e t => exact g3
          · refine ⟨log, [⟨st, ev, out⟩], rfl, ?_, h3⟩
            intro e he
            rw [List.mem_singleton.mp he]; exact h1
  unfold seenRisk at hr
  rw [Option.map_eq_some_iff] at hr
  obtain ⟨⟨r', m'⟩, hq, rfl⟩ := hr
  rcases (cachedRisk_spec hq).2.2 with h1 | h1
  · exact key h c _ h1
  · exact ⟨log, [], by simp, fun e he => absurd he (by simp), h1⟩

/-! ## Sane runs -/

theorem gStep_sane {sc : ℝ} {st st' : GlobalSt} {ev : GEvent} {out} (h : gStep sc st ev = some (st', out)) (hs : SaneEvent ev)
    (hw : GoodWorld st.mem.world) (hc : GoodCost st.conf.cost) : GoodWorld st'.mem.world ∧ GoodCost st'.conf.cost := by
  cases ev with
  | position p => obtain ⟨rfl, _⟩ := Prod.mk.inj (Option.some.inj h); exact ⟨hw, hc⟩
  | velocity v => obtain ⟨rfl, _⟩ := Prod.mk.inj (Option.some.inj h); exact ⟨hw, hc⟩
  | obstacles cs =>
      obtain ⟨rfl, _⟩ := Prod.mk.inj (Option.some.inj h)
      exact ⟨⟨hw.prob, hw.explore0, hw.explore1, hw.flow⟩, hc⟩
  | reconfigure C fl ex mi =>
      obtain ⟨rfl, _⟩ := Prod.mk.inj (Option.some.inj h)
      exact ⟨⟨hw.prob, hs.2.2.1, hs.2.2.2, hs.2.1⟩, hs.1⟩
  | fcu v p => obtain ⟨rfl, _⟩ := Prod.mk.inj (Option.some.inj h); exact ⟨hw, hc⟩
  | click x y => obtain ⟨rfl, _⟩ := Prod.mk.inj (Option.some.inj h); exact ⟨hw, hc⟩
  | map t1 t2 t res =>
      unfold gStep at h
      dsimp only at h
      split at h
      · rw [Option.map_eq_some_iff] at h
        obtain ⟨m, hm, h⟩ := h
        obtain ⟨rfl, _⟩ := Prod.mk.inj h
        cases t with
        | none => exact absurd hm (by unfold cacheStep; simp)
        | some t =>
            rw [← Option.some.inj hm]
            exact ⟨⟨hw.prob, hw.explore0, hw.explore1, hw.flow⟩, hc⟩
      · obtain ⟨rfl, _⟩ := Prod.mk.inj (Option.some.inj h)
        exact ⟨hw, hc⟩
  | plan f asked =>
      unfold gStep planTick at h
      dsimp only at h
      rw [Option.map_map, Option.map_eq_some_iff] at h
      obtain ⟨m, hm, h⟩ := h
      obtain ⟨rfl, _⟩ := Prod.mk.inj h
      refine ⟨?_, hc⟩
      show GoodWorld m.world
      rw [(askAll_spec asked hm).1]
      exact hw
  | command =>
      unfold gStep commandTick at h
      dsimp only at h
      split at h
      · exact absurd h (by simp)
      · rename_i r hq
        split at h
        · exact absurd h (by simp)
        · obtain ⟨rfl, _⟩ := Prod.mk.inj (Option.some.inj h)
          refine ⟨?_, hc⟩
          show GoodWorld r.2.world
          split at hq
          · obtain ⟨r1, r2⟩ := r
            rw [(cachedRisk_spec hq).1]
            exact hw
          · rw [← Option.some.inj hq]
            exact hw

theorem run_sane {sc : ℝ} {st0 st : GlobalSt} {log : List Entry} (h : Run sc st0 log st) (hw : GoodWorld st0.mem.world) (hc : GoodCost st0.conf.cost)
    (hs : ∀ e ∈ log, SaneEvent e.ev) : GoodWorld st.mem.world ∧ GoodCost st.conf.cost := by
  induction h with
  | start => exact ⟨hw, hc⟩
  | @step log st st' ev out hr hg hstep ih =>
      obtain ⟨h1, h2⟩ := ih (fun e he => hs e (List.mem_append_left _ he))
      exact gStep_sane hstep (hs ⟨st, ev, out⟩ (List.mem_append_right _ (List.mem_singleton.mpr rfl))) h1 h2

/-- in a sane run every risk answered is at least 0 -/
theorem run_risk {sc : ℝ} {st0 st : GlobalSt} {log : List Entry} (h : Run sc st0 log st) (hcache : st0.mem.cache = fun _ => none)
    (hw : GoodWorld st0.mem.world) (hc : GoodCost st0.conf.cost) (hs : ∀ e ∈ log, SaneEvent e.ev) (c : Cell) (r : ℝ)
    (hr : seenRisk sc st.mem c = some r) : 0 ≤ r := by
  obtain ⟨pre, mid, h1, _, h3⟩ := C101_risk_since_map_partial sc st0 hcache h c r hr
  refine cellRisk_nonneg sc _ ?_ c r h3
  cases mid with
  | nil => exact (run_sane h hw hc hs).1
  | cons e t =>
      exact (run_sane (run_prefix h h1).1 hw hc (fun x hx => hs x (by rw [h1]; exact List.mem_append_left _ hx))).1

/-! ## Every path found is legal for the risks answered when it was searched -/

theorem cycleStart_frame (sc : ℝ) (st : GpSt ℝ) : (cycleStart sc st).pos = st.pos ∧ (cycleStart sc st).vel = st.vel ∧
    (cycleStart sc st).goal = (goalForCycle sc st).1 ∧ ((cycleStart sc st).path = st.path ∨ (cycleStart sc st).path = [cellOf sc st.pos]) := by
  unfold cycleStart goalForCycle popNextGoal
  by_cases h : st.goal.withinPosition sc st.pos ∨ st.blocked = true
  · rw [if_pos h]
    cases hw : st.waypoints with
    | cons g rest =>
        dsimp only
        refine ⟨rfl, rfl, ?_, Or.inl rfl⟩
        simp [h, setGoal]
    | nil =>
        dsimp only
        by_cases hb : st.blocked = true
        · rw [if_pos hb]
          refine ⟨rfl, rfl, ?_, Or.inr rfl⟩
          simp [hb, stop, setGoal]
        · rw [if_neg hb]
          refine ⟨rfl, rfl, ?_, Or.inl rfl⟩
          simp [hb]
  · rw [if_neg h]
    refine ⟨rfl, rfl, ?_, Or.inl rfl⟩
    push_neg at h
    simp [h]

/-- **C101**: whenever a planning cycle finds a path, for the goal of the cycle (the current goal, or the one before it if the current one is reached or blocked),
from the position and velocity last reported: the path was found by a search and all its steps are legal for the risks as they are answered in
this cycle and for the parameters in force, or it is a path of the last resort (over the goal at maximum altitude). -/
theorem C101_plans_partial (sc : ℝ) (st0 : GlobalSt) (h0 : st0.mem.cache = fun _ => none) (hw : GoodWorld st0.mem.world) (hc : GoodCost st0.conf.cost)
    {log : List Entry} {st : GlobalSt} (h : Run sc st0 log st) (hs : ∀ e ∈ log, SaneEvent e.ev) {e : Entry} (he : e ∈ log) {p : List Cell}
    (hp : foundIn sc e = some p) :
    let s := startNode sc e.st.gp.pos e.st.gp.vel e.st.conf.searchTime
    let t := (goalForCycle sc e.st.gp).1
    SafePath sc (seenRisk sc e.st.mem) e.st.conf s t p ∨ LastResort sc (seenRisk sc e.st.mem) e.st.conf s t p := by
  obtain ⟨pre, post, hl⟩ := List.append_of_mem he
  obtain ⟨h1, h2, _⟩ := run_prefix h hl
  have hpre : ∀ x ∈ pre, SaneEvent x.ev := fun x hx => hs x (by rw [hl]; exact List.mem_append_left _ hx)
  unfold foundIn at hp
  cases hev : e.ev with
  | plan f asked =>
      rw [hev] at hp h2
      dsimp only at hp
      split at hp
      · rename_i hsr
        have hf := h2 hsr
        have := found_path (fun c r => run_risk h1 h0 hw hc hpre c r) (run_sane h1 hw hc hpre).2 hf hp
        obtain ⟨g1, g2, g3, _⟩ := cycleStart_frame sc e.st.gp
        rw [g1, g2, g3] at this
        exact this
      · exact absurd hp (by simp)
  | _ => rw [hev] at hp; exact absurd hp (by simp)

/-! ## What is flown -/

theorem tooRisky_iff (sc : ℝ) (st : GlobalSt) (f : Found ℝ) (c : Cell) : tooRisky (planEnv sc st f) c = true ↔
    ∃ r, seenRisk sc st.mem c = some r ∧ st.conf.cost.maxCellRisk < r := by
  unfold tooRisky planEnv
  dsimp only
  cases hr : seenRisk sc st.mem c with
  | none => simp
  | some r => simp

theorem setIntermediate_path (st : GpSt ℝ) : (setIntermediateGoal st).path = st.path := by
  unfold setIntermediateGoal
  split
  · rfl
  · rfl

open Classical in
/-- the path after a planning cycle: what was found, if something was found -/
theorem plan_path (sc : ℝ) (st : GlobalSt) (f : Found ℝ) (asked : List Cell) (out) :
    (plannerLoop sc (planEnv sc st f) st.gp).path = (foundIn sc ⟨st, .plan f asked, out⟩).getD (cycleStart sc st.gp).path := by
  have e : plannerLoop sc (planEnv sc st f) st.gp = planPath sc (planEnv sc st f) (cycleStart sc st.gp) := rfl
  obtain ⟨g1, _, g3, _⟩ := cycleStart_frame sc st.gp
  have hp : (planPath sc (planEnv sc st f) (cycleStart sc st.gp)).path = (getGlobalPath sc (planEnv sc st f) (cycleStart sc st.gp)).1.path := by
    unfold planPath
    dsimp only
    split
    · rfl
    · split
      · exact setIntermediate_path _
      · rfl
  rw [e, hp]
  unfold foundIn getGlobalPath
  dsimp only
  by_cases ha : st.conf.mustBeFree = true ∧ tooRisky (planEnv sc st f) (cycleStart sc st.gp).goal.cell = true
  · have hn : ¬ searches sc st := by
      rintro ⟨h1, _⟩
      exact h1 ⟨ha.1, (tooRisky_iff sc st f _).mp ha.2⟩
    rw [if_pos (show (planEnv sc st f).mustBeFree = true ∧ _ from ha), if_neg hn]
    rfl
  · rw [if_neg (show ¬ ((planEnv sc st f).mustBeFree = true ∧ _) from ha)]
    by_cases hb : isOccupied sc st.mem.world (cellOf sc st.gp.pos) = true
    · have hn : ¬ searches sc st := by
        rintro ⟨_, h2⟩
        rw [hb] at h2
        exact absurd h2 (by simp)
      rw [if_pos (show (planEnv sc st f).occupied (cellOf sc (cycleStart sc st.gp).pos) = true by rw [g1]; exact hb), if_neg hn]
      rfl
    · have hy : searches sc st := by
        refine ⟨?_, by simpa using hb⟩
        rintro ⟨h1, h2⟩
        exact ha ⟨h1, (tooRisky_iff sc st f _).mpr h2⟩
      rw [if_neg (show ¬ (planEnv sc st f).occupied (cellOf sc (cycleStart sc st.gp).pos) = true by rw [g1]; exact hb), if_pos hy]
      show (match f.path with
        | none => _
        | some p => _ : GpSt ℝ × Bool).1.path = _
      cases f.path with
      | none => rfl
      | some p => rfl

/-- **Specification**: the vehicle is on the way along the path `p` of cells: the pose it is sent to and the poses to come are the centres of cells of `p` without
its first one, in the order of the path (the last cell may come twice). -/
def Along (sc : ℝ) (p : List Cell) (fl : FollowSt) : Prop :=
  ∃ l : List Cell, (fl.goal :: fl.path).map GPose.position = l.map (Cell.toPoint sc) ∧ l.Sublist (p.tail ++ p.getLast?.toList)

/-- **Specification**: the poses to come lead to the end of the path. -/
def ToEnd (sc : ℝ) (p : List Cell) (fl : FollowSt) : Prop :=
  (fl.goal :: fl.path).getLast?.map GPose.position = p.getLast?.map (Cell.toPoint sc)

theorem poses_position (sc : ℝ) (l : List Cell) (y : ℝ) : (pathPoses sc y l).map GPose.position = l.map (Cell.toPoint sc) :=
  (C80_path_message sc y l).2.1

theorem setCurrentPath_short (sc y : ℝ) (fl : FollowSt) (l : List Cell) (h : l.length ≤ 1) :
    setCurrentPath fl (pathPoses sc y l) = { fl with path := [] } := by
  match l, h with
  | [], _ => rfl
  | [a], _ => rfl

/-- a published path is followed -/
theorem publish_along (sc yaw : ℝ) (cost : Node → Node → Option ℝ) (it : ℤ) (m : ℝ) (fl : FollowSt) (a b : Cell) (rest : List Cell) :
    Along sc (a :: b :: rest) (publishPath sc yaw (fun p => nodeSimplify cost p it m) fl (a :: b :: rest)) ∧
    ToEnd sc (a :: b :: rest) (publishPath sc yaw (fun p => nodeSimplify cost p it m) fl (a :: b :: rest)) := by
  obtain ⟨l, h1, h2, h3, h4⟩ := C54_endpoints_and_order cost (a :: b :: rest) (it : ℝ) m true
  have hl : ∃ l', l = a :: b :: l' := by
    match l, h2 with
    | [], h2 => exact absurd h2 (by simp)
    | [x], h2 => exact absurd h2 (by simp)
    | x :: y :: l', h2 =>
        simp only [List.take_succ_cons, List.take_zero, List.cons.injEq, and_true] at h2
        exact ⟨l', by rw [h2.1, h2.2]⟩
  obtain ⟨l', rfl⟩ := hl
  have hs : ∃ ex : List Cell, nodeSimplify cost (a :: b :: rest) it m = a :: b :: (l' ++ ex) ∧ ex.Sublist ((a :: b :: rest).getLast?.toList) := by
    unfold nodeSimplify
    rw [h4]
    split
    · exact ⟨_, rfl, List.Sublist.refl _⟩
    · exact ⟨[], by simp, List.nil_sublist _⟩
  obtain ⟨ex, hs, hex⟩ := hs
  obtain ⟨_, k2, k3⟩ := C79_success sc yaw (fun p => nodeSimplify cost p it m) fl (a :: b :: rest) a b (l' ++ ex) hs
  have hpos : ((publishPath sc yaw (fun p => nodeSimplify cost p it m) fl (a :: b :: rest)).goal ::
      (publishPath sc yaw (fun p => nodeSimplify cost p it m) fl (a :: b :: rest)).path).map GPose.position =
      (b :: (l' ++ ex)).map (Cell.toPoint sc) := by rw [List.map_cons, k2, k3]; rfl
  refine ⟨⟨b :: (l' ++ ex), hpos, ?_⟩, ?_⟩
  · rw [← List.cons_append]
    refine List.Sublist.append ?_ hex
    rw [List.tail_cons]
    exact List.cons_sublist_cons.mp h1
  · unfold ToEnd
    rw [← List.getLast?_map, hpos, List.getLast?_map]
    congr 1
    have hex' : ex = [] ∨ ex = (a :: b :: rest).getLast?.toList := by
      rw [List.getLast?_eq_some_getLast (List.cons_ne_nil _ _)] at hex ⊢
      match ex, hex with
      | [], _ => exact Or.inl rfl
      | x :: t, hex =>
          right
          exact List.Sublist.eq_of_length_le hex (by simp)
    rcases hex' with rfl | rfl
    · rw [List.append_nil, ← h3]
      rw [List.getLast?_cons_cons]
    · rw [List.getLast?_eq_some_getLast (List.cons_ne_nil a _)]
      rw [Option.toList_some, ← List.cons_append, List.getLast?_concat]

/-- following a path keeps to it -/
theorem along_position {sc : ℝ} {p : List Cell} {fl : FollowSt} (h : Along sc p fl) (q : GPose ℝ ℝ) : Along sc p (followPosition fl q) := by
  obtain ⟨l, h1, h2⟩ := h
  rcases followPosition_cases fl q with ⟨g1, g2, _⟩ | ⟨_, _, g3, _⟩
  · exact ⟨l, by rw [g1, g2]; exact h1, h2⟩
  · rw [g3] at h1
    match l, h1, h2 with
    | [], h1, _ => exact absurd h1 (by simp)
    | x :: t, h1, h2 =>
        refine ⟨t, (List.cons.inj h1).2, (List.sublist_cons_self x _).trans h2⟩

theorem toEnd_position {sc : ℝ} {p : List Cell} {fl : FollowSt} (h : ToEnd sc p fl ∨ fl.path = []) (q : GPose ℝ ℝ) :
    ToEnd sc p (followPosition fl q) ∨ (followPosition fl q).path = [] := by
  rcases followPosition_cases fl q with ⟨g1, g2, _⟩ | ⟨_, _, g3, _⟩
  · rcases h with h | h
    · left; unfold ToEnd; rw [g1, g2]; exact h
    · right; rw [g2]; exact h
  · rcases h with h | h
    · left
      unfold ToEnd at h ⊢
      rw [g3, List.getLast?_cons_cons] at h
      exact h
    · rw [g3] at h; exact absurd h (by simp)

theorem lastFound_snoc (sc : ℝ) (log : List Entry) (e : Entry) :
    lastFound sc (log ++ [e]) = match foundIn sc e with
      | some p => some (e, p)
      | none => lastFound sc log := by
  unfold lastFound
  rw [List.filterMap_append]
  cases h : foundIn sc e with
  | none => simp [h]
  | some p => simp [h]

/-- **Specification**: what the vehicle follows: the last path found by a planning cycle or, before the first one, the start position. -/
def OnTrack (sc : ℝ) (st0 : GlobalSt) (log : List Entry) (fl : FollowSt) : Prop :=
  match lastFound sc log with
  | none => fl.goal = st0.fl.goal ∧ fl.path = []
  | some ep => Along sc ep.2 fl ∧ (ToEnd sc ep.2 fl ∨ fl.path = [])

/-- the invariant: together with the path the planner remembers -/
def Track (sc : ℝ) (st0 : GlobalSt) (log : List Entry) (st : GlobalSt) : Prop :=
  OnTrack sc st0 log st.fl ∧
  (st.gp.path.length ≤ 1 ∨ ∃ ep, lastFound sc log = some ep ∧ st.gp.path = ep.2) ∧
  ∀ ep, lastFound sc log = some ep → ∃ a b rest, ep.2 = a :: b :: rest

theorem onTrack_same {sc : ℝ} {st0 : GlobalSt} {log log' : List Entry} {fl fl' : FollowSt} (hl : lastFound sc log' = lastFound sc log)
    (h1 : fl'.goal = fl.goal) (h2 : fl'.path = fl.path) (h : OnTrack sc st0 log fl) : OnTrack sc st0 log' fl' := by
  unfold OnTrack at h ⊢
  rw [hl]
  cases hq : lastFound sc log with
  | none => rw [hq] at h; exact ⟨h1.trans h.1, h2.trans h.2⟩
  | some ep =>
      rw [hq] at h
      dsimp only at h ⊢
      unfold Along ToEnd at h ⊢
      rw [h1, h2]
      exact h

theorem track_same {sc : ℝ} {st0 : GlobalSt} {log log' : List Entry} {st st' : GlobalSt} (hl : lastFound sc log' = lastFound sc log)
    (h1 : st'.fl.goal = st.fl.goal) (h2 : st'.fl.path = st.fl.path) (h3 : st'.gp.path = st.gp.path) (h : Track sc st0 log st) : Track sc st0 log' st' := by
  obtain ⟨g1, g2, g3⟩ := h
  refine ⟨onTrack_same hl h1 h2 g1, ?_, ?_⟩
  · rw [h3, hl]; exact g2
  · rw [hl]; exact g3

theorem run_track {sc : ℝ} {st0 : GlobalSt} (h0 : st0.mem.cache = fun _ => none) (hw : GoodWorld st0.mem.world) (hc : GoodCost st0.conf.cost)
    (hp0 : st0.gp.path.length ≤ 1) (hf0 : st0.fl.path = []) {log : List Entry} {st : GlobalSt} (h : Run sc st0 log st) (hs : ∀ e ∈ log, SaneEvent e.ev) :
    Track sc st0 log st := by
  induction h with
  | start => exact ⟨⟨rfl, hf0⟩, Or.inl hp0, fun ep hep => absurd hep (by simp [lastFound])⟩
  | @step log st st' ev out hr hg hstep ih =>
      have hpre : ∀ e ∈ log, SaneEvent e.ev := fun e he => hs e (List.mem_append_left _ he)
      have ht := ih hpre
      have nf : (∀ f a, ev ≠ .plan f a) → lastFound sc (log ++ [⟨st, ev, out⟩]) = lastFound sc log := by
        intro hne
        rw [lastFound_snoc]
        have : foundIn sc ⟨st, ev, out⟩ = none := by
          unfold foundIn
          cases ev with
          | plan f a => exact absurd rfl (hne f a)
          | _ => rfl
        rw [this]
      cases ev with
      | position p =>
          obtain ⟨rfl, _⟩ := Prod.mk.inj (Option.some.inj hstep)
          obtain ⟨g1, g2, g3⟩ := ht
          refine ⟨?_, by rw [nf (by simp)]; exact g2, by rw [nf (by simp)]; exact g3⟩
          unfold OnTrack at g1 ⊢
          rw [nf (by simp)]
          cases hq : lastFound sc log with
          | none =>
              rw [hq] at g1
              dsimp only at g1 ⊢
              rcases followPosition_cases st.fl p with ⟨k1, k2, _⟩ | ⟨_, _, k3, _⟩
              · exact ⟨k1.trans g1.1, k2.trans g1.2⟩
              · rw [g1.2] at k3; exact absurd k3 (by simp)
          | some ep =>
              rw [hq] at g1
              exact ⟨along_position g1.1 p, toEnd_position g1.2 p⟩
      | velocity v =>
          obtain ⟨rfl, _⟩ := Prod.mk.inj (Option.some.inj hstep)
          exact track_same (nf (by simp)) rfl rfl rfl ht
      | obstacles cs =>
          obtain ⟨rfl, _⟩ := Prod.mk.inj (Option.some.inj hstep)
          exact track_same (nf (by simp)) rfl rfl rfl ht
      | reconfigure C fl ex mi =>
          obtain ⟨rfl, _⟩ := Prod.mk.inj (Option.some.inj hstep)
          exact track_same (nf (by simp)) rfl rfl rfl ht
      | fcu v p =>
          obtain ⟨rfl, _⟩ := Prod.mk.inj (Option.some.inj hstep)
          refine track_same (st := st) (nf (by simp)) rfl rfl ?_ ht
          show (fcuGoal sc st.gp v p).path = st.gp.path
          unfold fcuGoal
          dsimp only
          split <;> rfl
      | click x y =>
          obtain ⟨rfl, _⟩ := Prod.mk.inj (Option.some.inj hstep)
          exact track_same (nf (by simp)) rfl rfl rfl ht
      | map t1 t2 t res =>
          unfold gStep at hstep
          dsimp only at hstep
          split at hstep
          · rw [Option.map_eq_some_iff] at hstep
            obtain ⟨m, hm, hstep⟩ := hstep
            obtain ⟨rfl, _⟩ := Prod.mk.inj hstep
            exact track_same (nf (by simp)) rfl rfl rfl ht
          · obtain ⟨rfl, _⟩ := Prod.mk.inj (Option.some.inj hstep)
            exact track_same (nf (by simp)) rfl rfl rfl ht
      | command =>
          unfold gStep commandTick at hstep
          dsimp only at hstep
          split at hstep
          · exact absurd hstep (by simp)
          · split at hstep
            · exact absurd hstep (by simp)
            · obtain ⟨rfl, _⟩ := Prod.mk.inj (Option.some.inj hstep)
              exact track_same (nf (by simp)) rfl rfl rfl ht
      | plan f asked =>
          unfold gStep planTick at hstep
          dsimp only at hstep
          rw [Option.map_map, Option.map_eq_some_iff] at hstep
          obtain ⟨m, hm, hstep⟩ := hstep
          obtain ⟨rfl, _⟩ := Prod.mk.inj hstep
          have hpath := plan_path sc st f asked out
          obtain ⟨g1, g2, g3⟩ := ht
          have hls := lastFound_snoc sc log ⟨st, .plan f asked, out⟩
          cases hfo : foundIn sc ⟨st, .plan f asked, out⟩ with
          | some p =>
              rw [hfo] at hpath hls
              dsimp only at hls
              have htwo : ∃ a b rest, p = a :: b :: rest := by
                unfold foundIn at hfo
                dsimp only at hfo
                split at hfo
                · rename_i hsr
                  exact found_two (fun c r => run_risk hr h0 hw hc hpre c r) (run_sane hr hw hc hpre).2 (hg hsr) hfo
                · exact absurd hfo (by simp)
              obtain ⟨a, b, rest, hp⟩ := htwo
              have hpp : (plannerLoop sc (planEnv sc st f) st.gp).path = a :: b :: rest := by rw [hpath, ← hp]; rfl
              refine ⟨?_, Or.inr ⟨_, hls, ?_⟩, ?_⟩
              · unfold OnTrack
                rw [hls]
                dsimp only [Function.comp]
                rw [hpp, hp]
                obtain ⟨k1, k2⟩ := publish_along sc st.fl.here.orientation (simplifyCost sc st) st.conf.simplifyIterations st.conf.simplifyMargin st.fl a b rest
                exact ⟨k1, Or.inl k2⟩
              · exact hpath
              · intro ep hep
                rw [hls] at hep
                rw [← Option.some.inj hep]
                exact ⟨a, b, rest, hp⟩
          | none =>
              rw [hfo] at hpath hls
              dsimp only at hls
              rw [Option.getD_none] at hpath
              obtain ⟨_, _, _, hcp⟩ := cycleStart_frame sc st.gp
              have hg2 : (plannerLoop sc (planEnv sc st f) st.gp).path.length ≤ 1 ∨
                  ∃ ep, lastFound sc log = some ep ∧ (plannerLoop sc (planEnv sc st f) st.gp).path = ep.2 := by
                rw [hpath]
                rcases hcp with hcp | hcp
                · rw [hcp]; exact g2
                · rw [hcp]; exact Or.inl (by simp)
              refine ⟨?_, by rw [hls]; exact hg2, by rw [hls]; exact g3⟩
              dsimp only [Function.comp]
              rcases hg2 with hsh | ⟨ep, hep, hpe⟩
              · have hsi : nodeSimplify (simplifyCost sc st) (plannerLoop sc (planEnv sc st f) st.gp).path st.conf.simplifyIterations
                    st.conf.simplifyMargin = (plannerLoop sc (planEnv sc st f) st.gp).path := by
                  unfold nodeSimplify simplifyPath
                  rw [if_pos (by omega)]
                have hpub : publishPath sc st.fl.here.orientation
                    (fun p => nodeSimplify (simplifyCost sc st) p st.conf.simplifyIterations st.conf.simplifyMargin) st.fl
                    (plannerLoop sc (planEnv sc st f) st.gp).path = { st.fl with path := [] } := by
                  unfold publishPath
                  dsimp only
                  rw [hsi, setCurrentPath_short _ _ _ _ hsh, setCurrentPath_short _ _ _ _ hsh]
                rw [hpub]
                unfold OnTrack at g1 ⊢
                rw [hls]
                cases hq : lastFound sc log with
                | none => rw [hq] at g1; exact ⟨g1.1, rfl⟩
                | some ep =>
                    rw [hq] at g1
                    refine ⟨?_, Or.inr rfl⟩
                    obtain ⟨l, k1, k2⟩ := g1.1
                    match l, k1, k2 with
                    | [], k1, _ => exact absurd k1 (by simp)
                    | x :: t, k1, k2 =>
                        refine ⟨[x], ?_, (List.singleton_sublist.mpr List.mem_cons_self).trans k2⟩
                        have := (List.cons.inj k1).1
                        simp [this]
              · obtain ⟨a, b, rest, hp⟩ := g3 ep hep
                unfold OnTrack
                rw [hls, hep, hpe, hp]
                obtain ⟨k1, k2⟩ := publish_along sc st.fl.here.orientation (simplifyCost sc st) st.conf.simplifyIterations st.conf.simplifyMargin st.fl a b rest
                dsimp only
                rw [hp]
                exact ⟨k1, Or.inl k2⟩

/-- **C101**: at every moment of every run the pose the vehicle is sent to, and the poses to come, are centres of cells of the last path found (without its first cell),
in the order of that path; they lead to its end, unless nothing is to come (end reached or STOP). Before the first path the vehicle is sent to the
configured start position. -/
theorem C101_on_track_partial (sc : ℝ) (st0 : GlobalSt) (startPos : V3 ℝ) (h0 : Fresh sc st0 startPos) (hw : GoodWorld st0.mem.world)
    (hc : GoodCost st0.conf.cost) {log : List Entry} {st : GlobalSt} (h : Run sc st0 log st) (hs : ∀ e ∈ log, SaneEvent e.ev) :
    match (generalizing := false) lastFound sc log with
    | none => st.fl.goal = ⟨startPos, 0⟩ ∧ st.fl.path = []
    | some ep => Along sc ep.2 st.fl ∧ (ToEnd sc ep.2 st.fl ∨ st.fl.path = []) := by
  have := (run_track h0.cache hw hc (by rw [h0.path]; simp) h0.flPath h hs).1
  unfold OnTrack at this
  cases hq : lastFound sc log with
  | none => rw [hq] at this; exact ⟨this.1.trans h0.flGoal, this.2⟩
  | some ep => rw [hq] at this; exact this

/-- **C101**: every position sent to the flight controller (that is a number) lies on the ray from the reported position of the vehicle to the centre of a cell of the
last path found before (not its first cell) - or to the start position, if none was found yet: that centre itself if it is less than a metre away,
otherwise the point at the commanded distance, which is between the default and the maximum speed. -/
theorem C101_setpoint_partial (sc : ℝ) (st0 : GlobalSt) (startPos : V3 ℝ) (h0 : Fresh sc st0 startPos) (hw : GoodWorld st0.mem.world)
    (hc : GoodCost st0.conf.cost) {log : List Entry} {st : GlobalSt} (h : Run sc st0 log st) (hs : ∀ e ∈ log, SaneEvent e.ev)
    {pre post : List Entry} {e : Entry} (hl : log = pre ++ e :: post) {q : GPose ℝ ℝ} (hq : e.out = some (some q))
    (hd : 0 ≤ e.st.conf.speed.defaultSpeed) (hm : e.st.conf.speed.defaultSpeed ≤ e.st.conf.speed.maxSpeed)
    (ht : e.st.conf.speed.threshold ≤ 1) :
    ∃ target : V3 ℝ,
      (match (generalizing := false) lastFound sc pre with
        | none => target = startPos
        | some ep => ∃ c ∈ ep.2.tail, target = c.toPoint sc) ∧
      (dist3 e.st.fl.here.position target < 1 → q.position = target) ∧
      (1 ≤ dist3 e.st.fl.here.position target →
        e.st.conf.speed.defaultSpeed ≤ dist3 e.st.fl.here.position q.position ∧
        dist3 e.st.fl.here.position q.position ≤ e.st.conf.speed.maxSpeed ∧
        ∃ r, 0 ≤ r ∧ q.position = e.st.fl.here.position.plus (V3.smul r (target.minus e.st.fl.here.position))) := by
  obtain ⟨hr, _, st', hstep⟩ := run_prefix h hl
  have hpre : ∀ x ∈ pre, SaneEvent x.ev := fun x hx => hs x (by rw [hl]; exact List.mem_append_left _ hx)
  have htr := C101_on_track_partial sc st0 startPos h0 hw hc hr hpre
  have hrisk := fun c r => run_risk hr h0.cache hw hc hpre c r
  refine ⟨e.st.fl.goal.position, ?_, ?_⟩
  · cases hlf : lastFound sc pre with
    | none => rw [hlf] at htr; dsimp only at htr ⊢; rw [htr.1]
    | some ep =>
        rw [hlf] at htr
        dsimp only at htr ⊢
        obtain ⟨⟨l, k1, k2⟩, _⟩ := htr
        match l, k1, k2 with
        | [], k1, _ => exact absurd k1 (by simp)
        | x :: t, k1, k2 =>
            refine ⟨x, ?_, (List.cons.inj k1).1⟩
            rcases List.mem_append.mp (k2.subset List.mem_cons_self) with hx | hx
            · exact hx
            · have htwo := (run_track h0.cache hw hc (by rw [h0.path]; simp) h0.flPath hr hpre).2.2 ep hlf
              obtain ⟨a, b, rest, hab⟩ := htwo
              rw [hab] at hx ⊢
              rw [List.getLast?_cons_cons, List.getLast?_eq_some_getLast (List.cons_ne_nil _ _)] at hx
              rw [List.tail_cons]
              rw [Option.toList_some, List.mem_singleton] at hx
              rw [hx]
              exact List.getLast_mem _
  · have hout : ∃ v, (∃ r, 0 ≤ r ∧ commandedSpeed e.st.conf.speed r = some v) ∧
        setpoint e.st.fl.goal.position e.st.fl.here.position v = some q.position := by
      cases hev : e.ev with
      | command =>
          rw [hev] at hstep
          unfold gStep commandTick at hstep
          dsimp only at hstep
          split at hstep
          · exact absurd hstep (by simp)
          · rename_i r hrr
            split at hstep
            · exact absurd hstep (by simp)
            · rename_i v hv
              obtain ⟨_, ho⟩ := Prod.mk.inj (Option.some.inj hstep)
              rw [hq] at ho
              have ho := Option.some.inj ho
              rw [Option.map_eq_some_iff] at ho
              obtain ⟨x, hx, hxq⟩ := ho
              refine ⟨v, ⟨r.1, ?_, hv⟩, by rw [← hxq]; exact hx⟩
              split at hrr
              · refine hrisk (cellOf sc e.st.fl.here.position) r.1 ?_
                unfold seenRisk
                rw [hrr]; rfl
              · rw [← Option.some.inj hrr]
      | map t1 t2 t res =>
          rw [hev] at hstep
          unfold gStep at hstep
          dsimp only at hstep
          split at hstep
          · rw [Option.map_eq_some_iff] at hstep
            obtain ⟨m, _, hstep⟩ := hstep
            rw [hq] at hstep
            exact absurd (Prod.mk.inj hstep).2 (by simp)
          · rw [hq] at hstep
            exact absurd (Prod.mk.inj (Option.some.inj hstep)).2 (by simp)
      | plan f asked =>
          rw [hev] at hstep
          unfold gStep at hstep
          dsimp only at hstep
          rw [Option.map_eq_some_iff] at hstep
          obtain ⟨m, _, hstep⟩ := hstep
          rw [hq] at hstep
          exact absurd (Prod.mk.inj hstep).2 (by simp)
      | _ =>
          rw [hev] at hstep
          unfold gStep at hstep
          rw [hq] at hstep
          exact absurd (Prod.mk.inj (Option.some.inj hstep)).2 (by simp)
    obtain ⟨v, ⟨r, hr0, hv⟩, hset⟩ := hout
    obtain ⟨v', hv', b1, b2, _⟩ := C77_speed e.st.conf.speed hm ht r hr0
    rw [hv] at hv'
    obtain rfl := Option.some.inj hv'
    have hne : e.st.fl.goal.position ≠ e.st.fl.here.position := by
      intro hh
      rw [hh, C77_at_goal_violated] at hset
      exact absurd hset (by simp)
    obtain ⟨p, hp, p1, p2⟩ := C77_setpoint e.st.fl.goal.position e.st.fl.here.position v (hd.trans b1) hne
    rw [hset] at hp
    obtain rfl := Option.some.inj hp
    refine ⟨p1, fun hge => ?_⟩
    obtain ⟨k1, k2⟩ := p2 hge
    rw [k1]
    exact ⟨b1, b2, k2⟩

end

end Global
end Avoidance
