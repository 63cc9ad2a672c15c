import Verif.GpRunMore
import Verif.GpFallbackMore
import Verif.GpSearchEffort
import Verif.GpEdgeProps
import Verif.GpMovesProps

/-!
# When the global planner gives up a goal (C111)

A planning cycle that finds nothing takes the goal for blocked. In every run: it does so only if there is no way the first search may take, or it has looked at
as many different places as it may; and if the way over the maximum altitude fails too.
-/

namespace Avoidance
namespace Global

/-! ## Specification -/

/-- A move of the search from the place `a` (a cell, with the cell it was entered from) to `b`: the step is permitted (`StepOk`), and `b` is a neighbour of
`a`; for speed nodes it is the cell that continues the last move, or a neighbour of that cell within the radius. -/
def MayMove (sc : ℝ) (ρ : Cell → Option ℝ) (C : GConf) (k : NodeKind) (a b : Node) : Prop :=
  b.parent = a.cell ∧ StepOk sc ρ C.cost a.cell b.cell ∧
  match k with
  | .speed => b.cell = (a.cell.sub a.parent).add a.cell ∨
      (b.cell ∈ ((a.cell.sub a.parent).add a.cell).neighbors ∧ 0 < a.cell.dist3D sc b.cell ∧ a.cell.dist3D sc b.cell < C.radius)
  | _ => b.cell ∈ a.cell.neighbors

/-- `b` can be reached from `a` by any number of moves. -/
def MayReach (sc : ℝ) (ρ : Cell → Option ℝ) (C : GConf) (k : NodeKind) : Node → Node → Prop := Relation.ReflTransGen (MayMove sc ρ C k)

/-- Places the search tells apart: without smoothing cells, otherwise cells with the cell they were entered from. -/
def Differ (k : NodeKind) (a b : Node) : Prop := a.cell ≠ b.cell ∨ (k ≠ .withoutSmooth ∧ a ≠ b)

/-- There is a way to the goal. -/
def WayExists (sc : ℝ) (ρ : Cell → Option ℝ) (C : GConf) (k : NodeKind) (s : Node) (t : GoalCell ℝ) : Prop :=
  ∃ g, MayReach sc ρ C k s g ∧ t.withinPlan sc g.cell

/-- `l` are different places, none of them in the goal, that can be reached from `s`. -/
def Around (sc : ℝ) (ρ : Cell → Option ℝ) (C : GConf) (k : NodeKind) (s : Node) (t : GoalCell ℝ) (l : List Node) : Prop :=
  l.Pairwise (Differ k) ∧ ∀ a ∈ l, MayReach sc ρ C k s a ∧ ¬ t.withinPlan sc a.cell

/-! ## The moves of the search -/

theorem legal_of_stepOk {sc : ℝ} {ρ : Cell → Option ℝ} {C : CostCfg} {a b : Cell} (h : StepOk sc ρ C a b) : moveLegal sc ρ C ⟨b, a⟩ := by
  obtain ⟨h1, rs, h2, h3, h4⟩ := h
  have e : pos sc b.z = ((b.z : ℝ) + 1 / 2) * sc := by unfold pos; ring
  refine ⟨by rw [e]; exact h1, rs.sum / (rs.length : ℝ) * a.dist3D sc b, ?_, h4⟩
  unfold moveRisk
  rw [h2]
  dsimp only
  have hl := mapM_length h2
  rw [if_neg (by rw [← hl]; exact fun h => h3 (List.length_eq_zero_iff.mp h)), ← hl]
  rfl

theorem mayMove_iff {sc : ℝ} {ρ : Cell → Option ℝ} {C : GConf} {k : NodeKind} {a b : Node} :
    MayMove sc ρ C k a b ↔ b ∈ nodeNeighbors sc C.radius k a ∧ moveLegal sc ρ C.cost b := by
  obtain ⟨bc, bp⟩ := b
  constructor
  · rintro ⟨h1, h2, h3⟩
    dsimp only at h1 h2 h3
    subst h1
    refine ⟨?_, legal_of_stepOk h2⟩
    unfold nodeNeighbors
    cases k with
    | speed =>
        dsimp only at h3 ⊢
        rcases h3 with h3 | ⟨h3, h4⟩
        · rw [h3]; exact List.mem_cons_self
        · exact List.mem_cons_of_mem _ (List.mem_map.mpr ⟨bc, List.mem_filter.mpr ⟨h3, (speedNear_iff sc C.radius _ _).mpr h4⟩, rfl⟩)
    | _ => exact List.mem_map.mpr ⟨bc, h3, rfl⟩
  · rintro ⟨h1, h2⟩
    have hp : bp = a.cell := nodeNeighbors_parent sc C.radius k a _ h1
    subst hp
    refine ⟨rfl, stepOk_of_legal h2, ?_⟩
    unfold nodeNeighbors at h1
    cases k with
    | speed =>
        dsimp only at h1 ⊢
        rcases List.mem_cons.mp h1 with h1 | h1
        · exact Or.inl (Node.mk.inj h1).1
        · obtain ⟨c, hc, he⟩ := List.mem_map.mp h1
          obtain ⟨rfl, _⟩ := Node.mk.inj he
          obtain ⟨h3, h4⟩ := List.mem_filter.mp hc
          exact Or.inr ⟨h3, (speedNear_iff sc C.radius _ _).mp h4⟩
    | _ =>
        obtain ⟨c, hc, he⟩ := List.mem_map.mp h1
        obtain ⟨rfl, _⟩ := Node.mk.inj he
        exact hc

section
variable {sc : ℝ} {ρ : Cell → Option ℝ} {C : GConf} {early : Cell → Bool} {k : NodeKind} {t : GoalCell ℝ}
  {heur : List Node → Node → ℝ} {pick : List ((Node × Bool) × ℝ) → ℕ}

/-- Equal nodes are interchangeable (`planner_cong` with any answers). -/
theorem risk_cong (sc radius : ℝ) (ρ : Cell → Option ℝ) (C : CostCfg) (early : Cell → Bool) (k : NodeKind) (t : GoalCell ℝ)
    (heur : List Node → Node → ℝ) (pick : List ((Node × Bool) × ℝ) → ℕ) : KeyCong (riskProblem sc radius ρ C early k t heur pick) := by
  constructor
  · intro a a' b c hk hs
    by_cases hkind : k = .withoutSmooth
    · subst hkind
      have hcell : a.cell = a'.cell := nodeKey_cell (k := .withoutSmooth) hk
      obtain ⟨v, h1, h2, h3, h4⟩ := hs
      refine ⟨v, ?_, h2, h3, ?_⟩
      · show v ∈ nodeNeighbors sc radius .withoutSmooth a'
        have h1' : v ∈ nodeNeighbors sc radius .withoutSmooth a := h1
        unfold nodeNeighbors at h1' ⊢
        dsimp only at h1' ⊢
        rw [← hcell]; exact h1'
      · show moveCost sc ρ C early .withoutSmooth a' v = some c
        have h4' : moveCost sc ρ C early .withoutSmooth a v = some c := h4
        unfold moveCost at h4' ⊢
        rw [← hcell]
        exact h4'
    · have : a = a' := nodeKey_full hkind hk
      rw [← this]; exact hs
  · intro a a' hk
    have : a.cell = a'.cell := nodeKey_cell (k := k) hk
    show decide (t.withinPlan sc a.cell) = decide (t.withinPlan sc a'.cell)
    rw [this]

theorem step_of_move {a b : Node} (h : MayMove sc ρ C k a b) : ∃ c, StepTo (riskProblem sc C.radius ρ C.cost early k t heur pick) a b c := by
  obtain ⟨h1, h2⟩ := mayMove_iff.mp h
  have h3 := h2
  obtain ⟨_, r, hr, _⟩ := h2
  obtain ⟨c, hc⟩ : ∃ c, moveCost sc ρ C.cost early k a b = some c := by
    unfold moveCost
    rw [hr]
    exact ⟨_, rfl⟩
  refine ⟨c, b, h1, ?_, rfl, hc⟩
  classical
  exact decide_eq_true h3

theorem move_of_step {a b : Node} {c : ℝ} (h : StepTo (riskProblem sc C.radius ρ C.cost early k t heur pick) a b c) :
    ∃ v, MayMove sc ρ C k a v ∧ nodeKey k v = nodeKey k b := by
  obtain ⟨v, h1, h2, h3, _⟩ := h
  refine ⟨v, mayMove_iff.mpr ⟨h1, ?_⟩, h3⟩
  classical
  exact of_decide_eq_true h2

theorem way_cost {s a : Node} (h : MayReach sc ρ C k s a) :
    ∃ l c, PathCost (riskProblem sc C.radius ρ C.cost early k t heur pick) l c ∧ l.head? = some s ∧ l.getLast? = some a := by
  induction h with
  | refl => exact ⟨[s], 0, PathCost.single s, rfl, rfl⟩
  | @tail b c hb hm ih =>
      obtain ⟨l, x, h1, h2, h3⟩ := ih
      obtain ⟨y, hy⟩ := step_of_move (early := early) (t := t) (heur := heur) (pick := pick) hm
      refine ⟨l ++ [c], _, h1.snoc h3 hy, ?_, by rw [List.getLast?_append]; rfl⟩
      cases l with
      | nil => exact absurd h2 (by simp)
      | cons z zs => exact h2

theorem reach_way {s a : Node} {x : ℝ} (h : Reach (riskProblem sc C.radius ρ C.cost early k t heur pick) s a x) :
    ∃ a', nodeKey k a' = nodeKey k a ∧ MayReach sc ρ C k s a' := by
  induction h with
  | start => exact ⟨s, rfl, Relation.ReflTransGen.refl⟩
  | @step a b y c _ hs ih =>
      obtain ⟨a', h1, h2⟩ := ih
      obtain ⟨v, h3, h4⟩ := move_of_step ((risk_cong sc C.radius ρ C.cost early k t heur pick).step a a' b c h1.symm hs)
      exact ⟨v, h4, Relation.ReflTransGen.tail h2 h3⟩

theorem differ_of_key {a b : Node} (h : nodeKey k a ≠ nodeKey k b) : Differ k a b := by
  by_cases hc : a.cell = b.cell
  · right
    constructor
    · rintro rfl
      apply h
      unfold nodeKey
      rw [hc]
    · rintro rfl
      exact h rfl
  · exact Or.inl hc

/-- why one search fails -/
theorem search_fails (hρ : ∀ c r, ρ c = some r → 0 ≤ r) (hC : GoodCost C.cost) (s : Node) (max n : ℕ) {it : ℕ}
    (h : findSmoothPath (riskProblem sc C.radius ρ C.cost early k t heur pick) s max n = some (none, it)) :
    ¬ WayExists sc ρ C k s t ∨ ∃ l, Around sc ρ C k s t l ∧ max ≤ l.length := by
  have hP := risk_nonneg sc C.radius ρ hρ C.cost hC early k t heur pick
  by_cases hit : it < max
  · left
    rintro ⟨g, h1, h2⟩
    obtain ⟨l, c, h3, h4, h5⟩ := way_cost (early := early) (t := t) (heur := heur) (pick := pick) h1
    refine C72_search_complete _ hP (risk_cong sc C.radius ρ C.cost early k t heur pick) s max n h hit ⟨l, c, g, h3, h4, h5, ?_⟩
    classical
    exact decide_eq_true h2
  · right
    obtain ⟨keys, ⟨h1, h2⟩, h3⟩ := C72_effort _ hP s max n h
    have h4 : ∀ x ∈ keys, ∃ a : Node, nodeKey k a = x ∧ MayReach sc ρ C k s a ∧ ¬ t.withinPlan sc a.cell := by
      intro x hx
      obtain ⟨a, y, ha, hg, hr⟩ := h2 x hx
      obtain ⟨a', e, hr'⟩ := reach_way hr
      refine ⟨a', e.trans ha, hr', ?_⟩
      rw [nodeKey_cell e]
      exact of_decide_eq_false hg
    have key : ∀ keys : List (Cell × Option Cell), keys.Nodup → (∀ x ∈ keys, ∃ a : Node, nodeKey k a = x ∧ MayReach sc ρ C k s a ∧ ¬ t.withinPlan sc a.cell) →
        ∃ l : List Node, Around sc ρ C k s t l ∧ l.map (nodeKey k) = keys := by
      intro keys
      induction keys with
      | nil => exact fun _ _ => ⟨[], ⟨List.Pairwise.nil, by simp⟩, rfl⟩
      | cons x xs ih =>
          intro hn hx
          obtain ⟨l, ⟨g1, g2⟩, g3⟩ := ih (List.nodup_cons.mp hn).2 (fun y hy => hx y (List.mem_cons_of_mem _ hy))
          obtain ⟨a, ha, hr, hg⟩ := hx x List.mem_cons_self
          refine ⟨a :: l, ⟨List.pairwise_cons.mpr ⟨fun b hb => differ_of_key ?_, g1⟩, ?_⟩, by rw [List.map_cons, ha, g3]⟩
          · intro e
            apply (List.nodup_cons.mp hn).1
            rw [← ha, e, ← g3]
            exact List.mem_map_of_mem hb
          · intro b hb
            rcases List.mem_cons.mp hb with rfl | hb
            · exact ⟨hr, hg⟩
            · exact g2 b hb
    obtain ⟨l, hl, e⟩ := key keys h1 h4
    refine ⟨l, hl, ?_⟩
    have : l.length = keys.length := by rw [← e, List.length_map]
    omega

end

/-- the last resort fails only if one of its legs does -/
theorem resort_fails {C : OldCfg ℝ} {ρ : Cell → Option ℝ} (h : GoodOld C ρ) (s t : Cell) (pick : List ((Cell × Bool) × ℝ) → ℕ) (max n : ℕ)
    (hf : find2DPath (1 : ℝ) C ρ s t pick max n = some none) :
    (¬ ∃ l, OpenRoute C ρ true s ⟨s.x, s.y, C.maxAltitude⟩ l) ∨ (¬ ∃ l, OpenRoute C ρ true ⟨t.x, t.y, C.maxAltitude⟩ t l) ∨
    (¬ ∃ l, OpenRoute C ρ false ⟨s.x, s.y, C.maxAltitude⟩ ⟨t.x, t.y, C.maxAltitude⟩ l) ∨
    ∃ cells : List Cell, cells.Nodup ∧ cells.length = max ∧
      ∃ a ∈ [s, ⟨s.x, s.y, C.maxAltitude⟩, ⟨t.x, t.y, C.maxAltitude⟩], ∀ c ∈ cells, c = a ∨ LowRisk C ρ c := by
  unfold find2DPath at hf
  dsimp only at hf
  rw [aboveCell_eq, aboveCell_eq] at hf
  have key : ∀ (is3D : Bool) (a b p : Cell), findPathOld (1 : ℝ) C ρ is3D a b p pick max n = some none →
      a ∈ [s, ⟨s.x, s.y, C.maxAltitude⟩, ⟨t.x, t.y, C.maxAltitude⟩] → (¬ ∃ l, OpenRoute C ρ is3D a b l) ∨
      ∃ cells : List Cell, cells.Nodup ∧ cells.length = max ∧
        ∃ a ∈ [s, ⟨s.x, s.y, C.maxAltitude⟩, ⟨t.x, t.y, C.maxAltitude⟩], ∀ c ∈ cells, c = a ∨ LowRisk C ρ c := by
    intro is3D a b p hn ha
    rcases (C76_cell_search_complete h 1 is3D a b p pick max).2 n hn with h1 | ⟨cells, h1, h2, h3⟩
    · exact Or.inl h1
    · exact Or.inr ⟨cells, h1, h2, a, ha, h3⟩
  cases h1 : findPathOld (1 : ℝ) C ρ true s ⟨s.x, s.y, C.maxAltitude⟩ s pick max n with
  | none => rw [h1] at hf; exact absurd hf (by simp)
  | some o1 =>
    cases h2 : findPathOld (1 : ℝ) C ρ true ⟨t.x, t.y, C.maxAltitude⟩ t ⟨t.x, t.y, C.maxAltitude⟩ pick max n with
    | none => rw [h1, h2] at hf; cases o1 <;> exact absurd hf (by simp)
    | some o2 =>
      cases h3 : findPathOld (1 : ℝ) C ρ false ⟨s.x, s.y, C.maxAltitude⟩ ⟨t.x, t.y, C.maxAltitude⟩ ⟨s.x, s.y, C.maxAltitude⟩ pick max n with
      | none => rw [h1, h2, h3] at hf; cases o1 <;> cases o2 <;> exact absurd hf (by simp)
      | some o3 =>
        cases o1 with
        | none => have := key _ _ _ _ h1 (by simp); tauto
        | some u =>
          cases o2 with
          | none => have := key _ _ _ _ h2 (by simp); tauto
          | some d =>
            cases o3 with
            | none => have := key _ _ _ _ h3 (by simp); tauto
            | some v => rw [h1, h2, h3] at hf; exact absurd hf (by simp)

/-- a path found is kept -/
theorem replanLoop_keeps (R : ReplanCfg ℝ) (search : Search ℝ) : ∀ (n : ℕ) (factor : ℝ) (left last : ℤ) (p : List Cell) (calls : List (Call ℝ))
    {r : Replanned ℝ}, replanLoop R search n factor left last (some p) calls = some r → r.best.isSome = true := by
  intro n
  induction n with
  | zero => intro _ _ _ _ _ _ h; exact absurd h (by unfold replanLoop; simp)
  | succ n ih =>
      intro factor left last p calls r h
      unfold replanLoop at h
      split at h
      · dsimp only at h
        split at h
        · obtain rfl := Option.some.inj h
          rfl
        · exact ih _ _ _ _ _ h
      · obtain rfl := Option.some.inj h
        rfl

/-- why `findPath` fails -/
theorem found_fails {sc : ℝ} {ρ : Cell → Option ℝ} (hρ : ∀ c r, ρ c = some r → 0 ≤ r) {C : GConf} (hC : GoodCost C.cost) {st : GpSt ℝ} {f : Found ℝ}
    (hf : IsFound sc ρ C st f) (hno : f.path = none) :
    (C.replan.minFactor ≤ C.replan.maxFactor → 0 < st.maxIter →
      ¬ WayExists sc ρ C (callKind C.replan C.replan.maxFactor) (startNode sc st.pos st.vel C.searchTime) st.goal ∨
      ∃ l, Around sc ρ C (callKind C.replan C.replan.maxFactor) (startNode sc st.pos st.vel C.searchTime) st.goal l ∧ st.maxIter ≤ l.length) ∧
    ∃ factor pick m, find2DPath sc (C.old factor) ρ (startNode sc st.pos st.vel C.searchTime).cell st.goal.cell pick 5000 m = some none := by
  obtain ⟨search, fallback, n, h1, h2, h3⟩ := hf
  obtain ⟨r, hr, _, h4⟩ := C55_result C.replan search fallback st.maxIter n f h3
  obtain ⟨_, hb, _⟩ := C55_schedule C.replan search st.maxIter n r hr
  rcases h4 with ⟨q, _, hfq, _⟩ | ⟨hnil, _, hfb, _⟩
  · rw [hno] at hfq; exact absurd hfq (by simp)
  rw [hnil] at hb
  have hbn : r.best = none := hb
  constructor
  · intro hmm hit
    have hs : (search ⟨C.replan.maxFactor, callKind C.replan C.replan.maxFactor, st.maxIter.toNat⟩).1 = none := by
      unfold replan at hr
      cases n with
      | zero => exact absurd hr (by simp [replanLoop])
      | succ n =>
        unfold replanLoop at hr
        rw [if_pos ⟨hmm, hit⟩] at hr
        dsimp only at hr
        cases hc : search ⟨C.replan.maxFactor, callKind C.replan C.replan.maxFactor, st.maxIter.toNat⟩ with
        | mk o it =>
          cases o with
          | none => rfl
          | some p =>
            exfalso
            rw [hc] at hr
            dsimp only at hr
            have := replanLoop_keeps C.replan search n _ _ _ _ _ hr
            rw [hbn] at this
            exact absurd this (by simp)
    obtain ⟨heur, pick, m, o, it, g1, g2⟩ := h1 ⟨C.replan.maxFactor, callKind C.replan C.replan.maxFactor, st.maxIter.toNat⟩
    rw [g2] at hs
    cases o with
    | some l => exact absurd hs (by simp)
    | none =>
      rcases search_fails hρ hC _ _ _ g1 with h | ⟨l, hl, hlen⟩
      · exact Or.inl h
      · refine Or.inr ⟨l, hl, ?_⟩
        dsimp only at hlen
        omega
  · obtain ⟨pick, m, g⟩ := h2 r hr hbn
    rw [← hfb, hno] at g
    exact ⟨r.factor, pick, m, g⟩

theorem cycleStart_iter (sc : ℝ) (st : GpSt ℝ) : (cycleStart sc st).maxIter = st.maxIter := by
  unfold cycleStart popNextGoal
  split
  · split
    · rfl
    · split <;> rfl
  · rfl

/-- **C111, the search.** In every run, if a planning cycle searches and finds nothing (and searches are configured at all), then no sequence of permitted moves leads from
the start of the search to the goal of the cycle, or at least as many different places as the iterations permitted can be reached without being in the goal. -/
theorem C111_no_way (sc : ℝ) (st0 : GlobalSt) (h0 : st0.mem.cache = fun _ => none) (hw : GoodWorld st0.mem.world) (hc : GoodCost st0.conf.cost)
    {log : List Entry} {st : GlobalSt} (h : Run sc st0 log st) (hs : ∀ e ∈ log, SaneEvent e.ev) {e : Entry} (he : e ∈ log) {f : Found ℝ} {asked : List Cell}
    (hev : e.ev = .plan f asked) (hsr : searches sc e.st) (hno : foundIn sc e = none) (hmm : e.st.conf.replan.minFactor ≤ e.st.conf.replan.maxFactor)
    (hit : 0 < e.st.gp.maxIter) :
    let k := if 3 / 2 < e.st.conf.replan.maxFactor then .withoutSmooth else e.st.conf.replan.kind
    let s := startNode sc e.st.gp.pos e.st.gp.vel e.st.conf.searchTime
    let t := (goalForCycle sc e.st.gp).1
    ¬ WayExists sc (seenRisk sc e.st.mem) e.st.conf k s t ∨
    ∃ l, Around sc (seenRisk sc e.st.mem) e.st.conf k s t l ∧ e.st.gp.maxIter ≤ l.length := by
  obtain ⟨pre, post, hl⟩ := List.append_of_mem he
  obtain ⟨h1, h2, _⟩ := run_prefix h hl
  have hpre : ∀ x ∈ pre, SaneEvent x.ev := fun x hx => hs x (by rw [hl]; exact List.mem_append_left _ hx)
  unfold foundIn at hno
  rw [hev] at hno h2
  dsimp only at hno
  rw [if_pos hsr] at hno
  have := (found_fails (fun c r => run_risk h1 h0 hw hc hpre c r) (run_sane h1 hw hc hpre).2 (h2 hsr) hno).1 hmm (by rw [cycleStart_iter]; exact hit)
  obtain ⟨g1, g2, g3, _⟩ := cycleStart_frame sc e.st.gp
  rw [g1, g2, g3, cycleStart_iter] at this
  exact this

/-- **C111, a way that exists is found.** In every run, if some sequence of permitted moves leads from the start of the search to the goal of a planning cycle that searches,
and fewer different places than the iterations permitted can be reached without being in the goal, then the cycle finds a path. -/
theorem C111_finds (sc : ℝ) (st0 : GlobalSt) (h0 : st0.mem.cache = fun _ => none) (hw : GoodWorld st0.mem.world) (hc : GoodCost st0.conf.cost)
    {log : List Entry} {st : GlobalSt} (h : Run sc st0 log st) (hs : ∀ e ∈ log, SaneEvent e.ev) {e : Entry} (he : e ∈ log) {f : Found ℝ} {asked : List Cell}
    (hev : e.ev = .plan f asked) (hsr : searches sc e.st) (hmm : e.st.conf.replan.minFactor ≤ e.st.conf.replan.maxFactor)
    (k : NodeKind) (hk : k = if 3 / 2 < e.st.conf.replan.maxFactor then .withoutSmooth else e.st.conf.replan.kind)
    (hway : WayExists sc (seenRisk sc e.st.mem) e.st.conf k (startNode sc e.st.gp.pos e.st.gp.vel e.st.conf.searchTime) (goalForCycle sc e.st.gp).1)
    (hfew : ∀ l, Around sc (seenRisk sc e.st.mem) e.st.conf k (startNode sc e.st.gp.pos e.st.gp.vel e.st.conf.searchTime) (goalForCycle sc e.st.gp).1 l →
      (l.length : ℤ) < e.st.gp.maxIter) :
    ∃ p, foundIn sc e = some p := by
  have hit : 0 < e.st.gp.maxIter := hfew [] ⟨List.Pairwise.nil, by simp⟩
  cases hno : foundIn sc e with
  | some p => exact ⟨p, rfl⟩
  | none =>
      exfalso
      have := C111_no_way sc st0 h0 hw hc h hs he hev hsr hno hmm hit
      dsimp only at this
      rw [← hk] at this
      rcases this with h1 | ⟨l, h1, h2⟩
      · exact h1 hway
      · have := hfew l h1
        omega

/-- **C111, the last resort fails too.** In every run (cell size 1), if a planning cycle searches and finds nothing, then also the way up, over the goal at the maximum altitude, and
down fails: one of these legs has no route over cells of low risk, or 5000 different cells were looked at. -/
theorem C111_no_last_resort (st0 : GlobalSt) (h0 : st0.mem.cache = fun _ => none) (hw : GoodWorld st0.mem.world) (hc : GoodCost st0.conf.cost)
    {log : List Entry} {st : GlobalSt} (h : Run 1 st0 log st) (hs : ∀ e ∈ log, SaneEvent e.ev) {e : Entry} (he : e ∈ log) {f : Found ℝ} {asked : List Cell}
    (hev : e.ev = .plan f asked) (hsr : searches 1 e.st) (hno : foundIn 1 e = none) :
    let C := e.st.conf.old 1
    let ρ := seenRisk 1 e.st.mem
    let s := (startNode 1 e.st.gp.pos e.st.gp.vel e.st.conf.searchTime).cell
    let t := (goalForCycle 1 e.st.gp).1.cell
    (¬ ∃ l, OpenRoute C ρ true s ⟨s.x, s.y, C.maxAltitude⟩ l) ∨ (¬ ∃ l, OpenRoute C ρ true ⟨t.x, t.y, C.maxAltitude⟩ t l) ∨
    (¬ ∃ l, OpenRoute C ρ false ⟨s.x, s.y, C.maxAltitude⟩ ⟨t.x, t.y, C.maxAltitude⟩ l) ∨
    ∃ cells : List Cell, cells.Nodup ∧ cells.length = 5000 ∧
      ∃ a ∈ [s, ⟨s.x, s.y, C.maxAltitude⟩, ⟨t.x, t.y, C.maxAltitude⟩], ∀ c ∈ cells, c = a ∨ LowRisk C ρ c := by
  obtain ⟨pre, post, hl⟩ := List.append_of_mem he
  obtain ⟨h1, h2, _⟩ := run_prefix h hl
  have hpre : ∀ x ∈ pre, SaneEvent x.ev := fun x hx => hs x (by rw [hl]; exact List.mem_append_left _ hx)
  unfold foundIn at hno
  rw [hev] at hno h2
  dsimp only at hno
  rw [if_pos hsr] at hno
  have hC := (run_sane h1 hw hc hpre).2
  have hρ : ∀ c r, seenRisk 1 e.st.mem c = some r → 0 ≤ r := fun c r => run_risk h1 h0 hw hc hpre c r
  obtain ⟨factor, pick, m, hf⟩ := (found_fails hρ hC (h2 hsr) hno).2
  obtain ⟨g1, g2, g3, _⟩ := cycleStart_frame 1 e.st.gp
  rw [g1, g2, g3] at hf
  exact resort_fails (C := e.st.conf.old factor) ⟨hC.riskFactor, hC.up, hC.down, hρ⟩ _ _ pick 5000 m hf

/-! ## Non-vacuity: a vehicle in a closed room -/

/-- everything is occupied, except the cells `free` -/
noncomputable def exWall (free : List Cell) (c : Cell) : Option ℝ := if c ∈ free then some (-1) else some 1

noncomputable def exWallWorld (free : List Cell) : RiskWorld ℝ := exGWorld (some (exWall free))

/-- at (0.5, 0.5, 3.5), with a map, with the goal `g` -/
noncomputable def exWallSt (free : List Cell) (g : Cell) : GlobalSt :=
  { gp := { pos := exHere, vel := ⟨0, 0, 0⟩, goal := ⟨g, 1, false⟩, goingBack := false, blocked := false, back := [], maxIter := 2000,
            factor := 2, path := [], waypoints := [] },
    fl := { lastGoal := ⟨exHere, 0⟩, goal := ⟨exHere, 0⟩, path := [], here := ⟨exHere, 0⟩, speed := 1 },
    mem := ⟨exWallWorld free, fun _ => none⟩, conf := { exGConf with cost := ⟨10, 1 / 10, 20, 500, 5, 1⟩, replan := ⟨103 / 100, 2, .node⟩ }, lastMap := 1 }

theorem prior_ge (c : Cell) : 1 / 1000 ≤ altPrior (1 : ℝ) c := by
  have := (C60_altPrior (1 : ℝ) c).1
  unfold altPriorTable at this
  simp only [List.mem_cons, List.not_mem_nil, or_false] at this
  rcases this with h | h | h | h | h | h | h | h | h | h | h | h | h | h | h | h | h | h | h | h | h | h | h | h | h <;> rw [h] <;> norm_num

theorem wall_risk (free : List Cell) (c : Cell) : seenRisk 1 (exWallSt free c).mem = fun d => some (singleRisk 1 (exWallWorld free) d) := by
  funext d
  unfold seenRisk cachedRisk exWallSt
  dsimp only
  unfold exWallWorld
  rw [exRisk_eq]
  rfl

theorem wall_free (free : List Cell) (c : Cell) (hz : 1 ≤ c.z) (hc : c ∈ free) : singleRisk 1 (exWallWorld free) c = 0 := by
  unfold singleRisk
  rw [if_neg (by omega)]
  have h1 : (exWallWorld free).tree = some (exWall free) := rfl
  rw [h1]
  dsimp only
  have h2 : exWall free c = some (-1) := by unfold exWall; rw [if_pos hc]
  rw [h2]
  dsimp only
  have h3 : (exWallWorld free).prob (-1) = 0 := by unfold exWallWorld exGWorld; dsimp only; rw [if_neg (by norm_num)]
  rw [if_neg (by
    intro h
    rcases h with h | h
    · exact absurd h (by simp [exWallWorld, exGWorld])
    · norm_num at h), h3]
  unfold posterior
  simp

theorem wall_occ (free : List Cell) (c : Cell) (hc : c ∉ free) : 1 / 2 < singleRisk 1 (exWallWorld free) c := by
  unfold singleRisk
  by_cases hz : c.z < 1
  · rw [if_pos hz]; norm_num
  rw [if_neg hz]
  have h1 : (exWallWorld free).tree = some (exWall free) := rfl
  rw [h1]
  dsimp only
  have h2 : exWall free c = some 1 := by unfold exWall; rw [if_neg hc]
  rw [h2]
  dsimp only
  have h3 : (exWallWorld free).prob 1 = 1 := by unfold exWallWorld exGWorld; dsimp only; rw [if_pos (by norm_num)]
  rw [if_pos (Or.inr (by norm_num)), h3]
  have h4 := prior_ge c
  unfold posterior
  rw [lt_div_iff₀ (by linarith)]
  linarith

/-- no move leads into the wall -/
theorem wall_step (free : List Cell) (g a b : Cell) (hn : b ∈ a.neighbors) (h : StepOk 1 (seenRisk 1 (exWallSt free g).mem) (exWallSt free g).conf.cost a b) :
    b ∈ free := by
  by_contra hb
  obtain ⟨_, rs, h2, h3, h4⟩ := h
  rw [wall_risk] at h2
  have hgap : gap a b < 25 ∧ (⟨b, a⟩ : Node).steps ≠ 0 ∧ 0 < a.dist3D 1 b := by
    have h1 : 0 < gap a b ∧ gap a b < 25 ∧ (⟨b, a⟩ : Node).steps ≠ 0 := by
      unfold Cell.neighbors at hn
      simp only [List.mem_cons, List.not_mem_nil, or_false] at hn
      unfold gap Node.steps
      rcases hn with h | h | h | h | h | h | h | h | h | h <;> subst h <;> dsimp only <;> ring_nf <;> decide
    refine ⟨h1.2.1, h1.2.2, ?_⟩
    unfold Cell.dist3D
    apply Real.sqrt_pos.mpr
    have : (0 : ℝ) < (gap a b : ℤ) := by exact_mod_cast h1.1
    unfold gap at this
    push_cast at this
    unfold pos
    nlinarith [this]
  have hcnt := count_le ⟨b, a⟩ hgap.1
  have hmem : b ∈ (⟨b, a⟩ : Node).cells (1 : ℝ) := by
    rw [(C83_examined 1 one_pos _ b).1]
    refine ⟨(⟨b, a⟩ : Node).steps, Nat.one_le_iff_ne_zero.mpr hgap.2.1, le_refl _, 1 / 10, 1 / 10, Or.inl rfl, Or.inl rfl, ?_⟩
    have hd : (((⟨b, a⟩ : Node).steps : ℕ) : ℝ) / (((⟨b, a⟩ : Node).steps : ℕ) : ℝ) = 1 := div_self (by exact_mod_cast hgap.2.1)
    rw [hd]
    unfold InBox pos
    dsimp only
    norm_num
    repeat' constructor
    all_goals linarith
  have hrs : rs = ((⟨b, a⟩ : Node).cells (1 : ℝ)).map (fun d => singleRisk 1 (exWallWorld free) d) := by
    have : ∀ (l : List Cell) (r : List ℝ), l.mapM (fun d => some (singleRisk 1 (exWallWorld free) d)) = some r →
        r = l.map (fun d => singleRisk 1 (exWallWorld free) d) := by
      intro l
      induction l with
      | nil => intro r h; rw [List.mapM_nil] at h; exact (Option.some.inj h).symm
      | cons x xs ih =>
          intro r h
          rw [List.mapM_cons] at h
          cases hx : xs.mapM (fun d => some (singleRisk 1 (exWallWorld free) d)) with
          | none => rw [hx] at h; exact absurd h (by simp)
          | some y =>
              rw [hx] at h
              have := Option.some.inj h
              rw [List.map_cons, ← ih y hx]
              exact this.symm
    exact this _ _ h2
  have hsum : 1 / 2 < rs.sum := by
    rw [hrs]
    have h5 := wall_occ free b hb
    have h6 : singleRisk 1 (exWallWorld free) b ≤ (((⟨b, a⟩ : Node).cells (1 : ℝ)).map (fun d => singleRisk 1 (exWallWorld free) d)).sum :=
      List.single_le_sum (fun x hx => by
        obtain ⟨d, _, rfl⟩ := List.mem_map.mp hx
        exact (C60_single_risk 1 (exWallWorld free) (exGWorld_good _) d).1) _ (List.mem_map.mpr ⟨b, hmem, rfl⟩)
    linarith
  have hlen : (rs.length : ℝ) = (((⟨b, a⟩ : Node).cells (1 : ℝ)).length : ℝ) := by rw [hrs, List.length_map]
  have hpos : (0 : ℝ) < rs.length := by
    have : 0 < rs.length := List.length_pos_of_ne_nil h3
    exact_mod_cast this
  have hcnt' : (rs.length : ℝ) ≤ 3 * a.dist3D 1 b := by rw [hlen]; exact hcnt
  have h7 : (exWallSt free g).conf.cost.maxCellRisk = 1 / 10 := rfl
  rw [h7] at h4
  have h8 : 1 / 6 ≤ rs.sum / (rs.length : ℝ) * a.dist3D 1 b := by
    rw [div_mul_eq_mul_div, le_div_iff₀ hpos]
    nlinarith
  linarith

theorem wall_start : startNode (1 : ℝ) exHere ⟨0, 0, 0⟩ (1 / 2) = ⟨⟨0, 0, 3⟩, ⟨0, 0, 3⟩⟩ := by
  unfold startNode cellOf exHere
  norm_num

theorem wall_cycle (free : List Cell) (g : Cell) (hg : 1 ≤ g.manhattan (1 : ℝ) exHere) : cycleStart 1 (exWallSt free g).gp = (exWallSt free g).gp := by
  unfold cycleStart
  rw [if_neg]
  rintro (h | h)
  · have h' : g.manhattan (1 : ℝ) exHere < 1 := h
    linarith
  · exact absurd h (by simp [exWallSt])

theorem wall_goal (free : List Cell) (g : Cell) (hg : 1 ≤ g.manhattan (1 : ℝ) exHere) : (goalForCycle 1 (exWallSt free g).gp).1 = ⟨g, 1, false⟩ := by
  rw [← (cycleStart_frame 1 _).2.2.1, wall_cycle free g hg]
  rfl

theorem wall_searches (free : List Cell) (g : Cell) (hg : 1 ≤ g.manhattan (1 : ℝ) exHere) (h1 : g ∈ free) (h2 : 1 ≤ g.z) (h3 : (⟨0, 0, 3⟩ : Cell) ∈ free) :
    searches 1 (exWallSt free g) := by
  constructor
  · rintro ⟨_, r, hr, hlt⟩
    rw [wall_cycle free g hg, wall_risk] at hr
    have e : (exWallSt free g).gp.goal.cell = g := rfl
    rw [e] at hr
    have := Option.some.inj hr
    rw [wall_free free g h2 h1] at this
    rw [← this] at hlt
    have : (exWallSt free g).conf.cost.maxCellRisk = 1 / 10 := rfl
    rw [this] at hlt
    norm_num at hlt
  · unfold isOccupied
    have e : cellOf 1 (exWallSt free g).gp.pos = ⟨0, 0, 3⟩ := exCell
    have e' : (exWallSt free g).mem.world = exWallWorld free := rfl
    rw [e, e', wall_free free _ (by decide) h3]
    norm_num

theorem wall_run (free : List Cell) (g : Cell) : ∃ f st', Run 1 (exWallSt free g) [⟨exWallSt free g, .plan f [], none⟩] st' := by
  exact C101_cycle_ends_partial 1 (exWallSt free g) rfl (exGWorld_good _) (by refine ⟨?_, ?_, ?_, ?_⟩ <;> unfold exWallSt <;> norm_num) Run.start (by simp)
    (by unfold exWallSt exGConf; norm_num) (by unfold exWallSt exWallWorld exGWorld; norm_num) (by unfold exWallSt exWallWorld exGWorld; norm_num) []

theorem wall_cost (free : List Cell) (g : Cell) : GoodCost (exWallSt free g).conf.cost := by refine ⟨?_, ?_, ?_, ?_⟩ <;> unfold exWallSt <;> norm_num

theorem wall_reach (free : List Cell) (g : Cell) {s a : Node} (hs : s.cell ∈ free)
    (h : MayReach 1 (seenRisk 1 (exWallSt free g).mem) (exWallSt free g).conf .withoutSmooth s a) : a.cell ∈ free := by
  induction h with
  | refl => exact hs
  | tail _ hm _ => exact wall_step free g _ _ hm.2.2 hm.2.1

/-- **Non-vacuity of `C111_finds`**: the room has two cells, the vehicle is in one and the goal is the other. -/
example : ∃ f st' p, Run 1 (exWallSt [⟨0, 0, 3⟩, ⟨1, 0, 3⟩] ⟨1, 0, 3⟩) [⟨exWallSt [⟨0, 0, 3⟩, ⟨1, 0, 3⟩] ⟨1, 0, 3⟩, .plan f [], none⟩] st' ∧
    foundIn 1 ⟨exWallSt [⟨0, 0, 3⟩, ⟨1, 0, 3⟩] ⟨1, 0, 3⟩, .plan f [], none⟩ = some p := by
  have hg : 1 ≤ (⟨1, 0, 3⟩ : Cell).manhattan (1 : ℝ) exHere := by unfold Cell.manhattan exHere pos; norm_num
  obtain ⟨f, st', hrun⟩ := wall_run [⟨0, 0, 3⟩, ⟨1, 0, 3⟩] ⟨1, 0, 3⟩
  have hstart : startNode 1 (exWallSt [⟨0, 0, 3⟩, ⟨1, 0, 3⟩] ⟨1, 0, 3⟩).gp.pos (exWallSt [⟨0, 0, 3⟩, ⟨1, 0, 3⟩] ⟨1, 0, 3⟩).gp.vel
      (exWallSt [⟨0, 0, 3⟩, ⟨1, 0, 3⟩] ⟨1, 0, 3⟩).conf.searchTime = ⟨⟨0, 0, 3⟩, ⟨0, 0, 3⟩⟩ := wall_start
  obtain ⟨p, hp⟩ := C111_finds 1 _ rfl (exGWorld_good _) (wall_cost _ _) hrun (by simp [SaneEvent]) (e := ⟨exWallSt [⟨0, 0, 3⟩, ⟨1, 0, 3⟩] ⟨1, 0, 3⟩, .plan f [], none⟩)
    (by simp) rfl (wall_searches _ _ hg (by simp) (by decide) (by simp)) (by unfold exWallSt exGConf; norm_num) .withoutSmooth
    (by
      have e : (exWallSt [⟨0, 0, 3⟩, ⟨1, 0, 3⟩] ⟨1, 0, 3⟩).conf.replan.maxFactor = 2 := rfl
      dsimp only
      rw [e, if_pos (by norm_num)])
    (by
      dsimp only
      rw [hstart, wall_goal _ _ hg]
      refine ⟨⟨⟨1, 0, 3⟩, ⟨0, 0, 3⟩⟩, Relation.ReflTransGen.single ⟨rfl, ⟨?_, [0, 0], ?_, by simp, ?_⟩, ?_⟩, ?_⟩
      · have e : (exWallSt [⟨0, 0, 3⟩, ⟨1, 0, 3⟩] ⟨1, 0, 3⟩).conf.cost.maxAltitude = 10 := rfl
        rw [e]
        norm_num
      · have e := unit_cells ⟨0, 0, 3⟩
        dsimp only at e
        rw [zero_add] at e
        dsimp only
        rw [e, wall_risk, List.mapM_cons, List.mapM_cons, List.mapM_nil, wall_free _ _ (by decide) (by simp), wall_free _ _ (by decide) (by simp)]
        rfl
      · have e : (exWallSt [⟨0, 0, 3⟩, ⟨1, 0, 3⟩] ⟨1, 0, 3⟩).conf.cost.maxCellRisk = 1 / 10 := rfl
        rw [e]
        norm_num
      · simp [Cell.neighbors]
      · unfold GoalCell.withinPlan Cell.manhattan Cell.toPoint pos
        norm_num)
    (by
      dsimp only
      rw [hstart]
      rintro l ⟨h1, h2⟩
      have hn : (l.map Node.cell).Nodup := by
        rw [List.nodup_iff_pairwise_ne, List.pairwise_map]
        refine h1.imp ?_
        rintro a b (h | h)
        · exact h
        · exact absurd rfl h.1
      have hsub : (l.map Node.cell).Subperm [⟨0, 0, 3⟩, ⟨1, 0, 3⟩] := List.subperm_of_subset hn (by
        intro c hc
        obtain ⟨a, ha, rfl⟩ := List.mem_map.mp hc
        exact wall_reach _ _ (by simp) (h2 a ha).1)
      have := hsub.length_le
      rw [List.length_map] at this
      have e : (exWallSt [⟨0, 0, 3⟩, ⟨1, 0, 3⟩] ⟨1, 0, 3⟩).gp.maxIter = 2000 := rfl
      rw [e]
      simp only [List.length_cons, List.length_nil] at this
      omega)
  exact ⟨f, st', p, hrun, hp⟩

/-- in a room without exit no path is found -/
theorem wall_closed : ∃ f st', Run 1 (exWallSt [⟨0, 0, 3⟩, ⟨3, 0, 3⟩] ⟨3, 0, 3⟩) [⟨exWallSt [⟨0, 0, 3⟩, ⟨3, 0, 3⟩] ⟨3, 0, 3⟩, .plan f [], none⟩] st' ∧
    searches 1 (exWallSt [⟨0, 0, 3⟩, ⟨3, 0, 3⟩] ⟨3, 0, 3⟩) ∧ foundIn 1 ⟨exWallSt [⟨0, 0, 3⟩, ⟨3, 0, 3⟩] ⟨3, 0, 3⟩, .plan f [], none⟩ = none := by
  have hg : 1 ≤ (⟨3, 0, 3⟩ : Cell).manhattan (1 : ℝ) exHere := by unfold Cell.manhattan exHere pos; norm_num
  obtain ⟨f, st', hrun⟩ := wall_run [⟨0, 0, 3⟩, ⟨3, 0, 3⟩] ⟨3, 0, 3⟩
  have hstart : startNode 1 (exWallSt [⟨0, 0, 3⟩, ⟨3, 0, 3⟩] ⟨3, 0, 3⟩).gp.pos (exWallSt [⟨0, 0, 3⟩, ⟨3, 0, 3⟩] ⟨3, 0, 3⟩).gp.vel
      (exWallSt [⟨0, 0, 3⟩, ⟨3, 0, 3⟩] ⟨3, 0, 3⟩).conf.searchTime = ⟨⟨0, 0, 3⟩, ⟨0, 0, 3⟩⟩ := wall_start
  refine ⟨f, st', hrun, wall_searches _ _ hg (by simp) (by decide) (by simp), ?_⟩
  cases hp : foundIn 1 ⟨exWallSt [⟨0, 0, 3⟩, ⟨3, 0, 3⟩] ⟨3, 0, 3⟩, .plan f [], none⟩ with
  | none => rfl
  | some p =>
    exfalso
    have := C101_plans_partial 1 _ rfl (exGWorld_good _) (wall_cost _ _) hrun (by simp [SaneEvent]) (e := ⟨exWallSt [⟨0, 0, 3⟩, ⟨3, 0, 3⟩] ⟨3, 0, 3⟩, .plan f [], none⟩)
      (by simp) hp
    dsimp only at this
    rw [hstart, wall_goal _ _ hg] at this
    have stuck : ∀ (l : List Cell) (a : Cell) (R : Cell → Cell → Prop), (∀ b, R ⟨0, 0, 3⟩ b → b = ⟨0, 0, 3⟩) → a = ⟨0, 0, 3⟩ → (a :: l).IsChain R →
        ∀ c ∈ a :: l, c = ⟨0, 0, 3⟩ := by
      intro l
      induction l with
      | nil => intro a R _ ha _ c hc; rw [List.mem_singleton.mp hc]; exact ha
      | cons b l ih =>
          intro a R hR ha hch c hc
          rw [List.isChain_cons_cons] at hch
          rcases List.mem_cons.mp hc with rfl | hc
          · exact ha
          · exact ih b R hR (hR b (by rw [← ha]; exact hch.1)) hch.2 c hc
    rcases this with ⟨rest, _, h2, h3⟩ | ⟨factor, pick, m, h⟩
    · have h4 := stuck rest ⟨0, 0, 3⟩ _ (fun b hb => by
        have h5 : b ∈ (⟨0, 0, 3⟩ : Cell).neighbors := hb.2 (by
          have e : (exWallSt [⟨0, 0, 3⟩, ⟨3, 0, 3⟩] ⟨3, 0, 3⟩).conf.replan.kind = .node := rfl
          rw [e]
          simp)
        have h6 := wall_step _ _ _ _ h5 hb.1
        simp only [List.mem_cons, List.not_mem_nil, or_false] at h6
        rcases h6 with h6 | h6
        · exact h6
        · rw [h6] at h5; exact absurd h5 (by decide)) rfl h2
      have h5 := h4 _ (List.getLast_mem (List.cons_ne_nil _ _))
      rw [h5] at h3
      unfold GoalCell.withinPlan Cell.manhattan Cell.toPoint pos at h3
      norm_num at h3
    · have hgood : GoodOld ((exWallSt [⟨0, 0, 3⟩, ⟨3, 0, 3⟩] ⟨3, 0, 3⟩).conf.old factor) (seenRisk 1 (exWallSt [⟨0, 0, 3⟩, ⟨3, 0, 3⟩] ⟨3, 0, 3⟩).mem) := by
        refine ⟨(wall_cost [⟨0, 0, 3⟩, ⟨3, 0, 3⟩] ⟨3, 0, 3⟩).riskFactor, (wall_cost [⟨0, 0, 3⟩, ⟨3, 0, 3⟩] ⟨3, 0, 3⟩).up, (wall_cost [⟨0, 0, 3⟩, ⟨3, 0, 3⟩] ⟨3, 0, 3⟩).down, fun c r hr => ?_⟩
        rw [wall_risk] at hr
        rw [← Option.some.inj hr]
        exact (C60_single_risk 1 _ (exGWorld_good _) c).1
      obtain ⟨k1, k2, _, _, k5, _, k7⟩ := C76_fallback_path (C := (exWallSt [⟨0, 0, 3⟩, ⟨3, 0, 3⟩] ⟨3, 0, 3⟩).conf.old factor) hgood ⟨0, 0, 3⟩ ⟨3, 0, 3⟩
        (by show (3 : ℤ) ≤ 10; norm_num) pick 5000 m h
      have hall : ∀ c ∈ p, c = ⟨0, 0, 3⟩ ∨ c = ⟨3, 0, 3⟩ ∨ c = ⟨0, 0, 10⟩ ∨ c = ⟨3, 0, 10⟩ := by
        intro c hc
        rcases k7 c hc with ⟨r, hr, hle⟩ | h | h | h | h
        · rw [wall_risk] at hr
          have e1 : ((exWallSt [⟨0, 0, 3⟩, ⟨3, 0, 3⟩] ⟨3, 0, 3⟩).conf.old factor).riskFactor = 500 := rfl
          have e2 : ((exWallSt [⟨0, 0, 3⟩, ⟨3, 0, 3⟩] ⟨3, 0, 3⟩).conf.old factor).maxCellRisk = 1 / 10 := rfl
          rw [e1, e2, ← Option.some.inj hr] at hle
          by_cases hf : c ∈ [(⟨0, 0, 3⟩ : Cell), ⟨3, 0, 3⟩]
          · simp only [List.mem_cons, List.not_mem_nil, or_false] at hf
            tauto
          · have := wall_occ _ c hf
            linarith
        · tauto
        · tauto
        · exact Or.inr (Or.inr (Or.inl h))
        · exact Or.inr (Or.inr (Or.inr h))
      cases p with
      | nil => exact absurd k1 (by simp)
      | cons a l =>
        rw [List.head?_cons, Option.some_inj] at k1
        have key : ∀ (l : List Cell) (a : Cell), a = ⟨0, 0, 3⟩ →
            (a :: l).IsChain (fun a b => a = b ∨ OpenStep ((exWallSt [⟨0, 0, 3⟩, ⟨3, 0, 3⟩] ⟨3, 0, 3⟩).conf.old factor) true a b) →
            (∀ c ∈ a :: l, c = ⟨0, 0, 3⟩ ∨ c = ⟨3, 0, 3⟩ ∨ c = ⟨0, 0, 10⟩ ∨ c = ⟨3, 0, 10⟩) → ∀ c ∈ a :: l, c = ⟨0, 0, 3⟩ := by
          intro l
          induction l with
          | nil => intro a ha _ _ c hc; rw [List.mem_singleton.mp hc]; exact ha
          | cons b l ih =>
              intro a ha hch hal c hc
              rw [List.isChain_cons_cons] at hch
              have hb : b = ⟨0, 0, 3⟩ := by
                subst ha
                rcases hch.1 with h | h
                · exact h.symm
                · rcases hal b (by simp) with h' | h' | h' | h'
                  · exact h'
                  all_goals
                    exfalso
                    subst h'
                    rcases h with ⟨h, hz⟩ | ⟨_, h, _⟩ | ⟨_, h, _⟩
                    · revert h hz; decide
                    · revert h; decide
                    · revert h; decide
              rcases List.mem_cons.mp hc with rfl | hc
              · exact ha
              · exact ih b hb hch.2 (fun c hc => hal c (List.mem_cons_of_mem _ hc)) c hc
        have h9 := key l a k1 k5 hall _ (List.mem_of_getLast? k2)
        exact absurd h9 (by decide)

/-- **Non-vacuity of `C111_no_way`**: there is no exit from the room. -/
example : ¬ WayExists 1 (seenRisk 1 (exWallSt [⟨0, 0, 3⟩, ⟨3, 0, 3⟩] ⟨3, 0, 3⟩).mem) (exWallSt [⟨0, 0, 3⟩, ⟨3, 0, 3⟩] ⟨3, 0, 3⟩).conf .withoutSmooth
    ⟨⟨0, 0, 3⟩, ⟨0, 0, 3⟩⟩ ⟨⟨3, 0, 3⟩, 1, false⟩ ∨ ∃ l, Around 1 (seenRisk 1 (exWallSt [⟨0, 0, 3⟩, ⟨3, 0, 3⟩] ⟨3, 0, 3⟩).mem)
      (exWallSt [⟨0, 0, 3⟩, ⟨3, 0, 3⟩] ⟨3, 0, 3⟩).conf .withoutSmooth ⟨⟨0, 0, 3⟩, ⟨0, 0, 3⟩⟩ ⟨⟨3, 0, 3⟩, 1, false⟩ l ∧ (2000 : ℤ) ≤ l.length := by
  have hg : 1 ≤ (⟨3, 0, 3⟩ : Cell).manhattan (1 : ℝ) exHere := by unfold Cell.manhattan exHere pos; norm_num
  obtain ⟨f, st', hrun, hsr, hno⟩ := wall_closed
  have := C111_no_way 1 _ rfl (exGWorld_good _) (wall_cost _ _) hrun (by simp [SaneEvent]) (e := ⟨exWallSt [⟨0, 0, 3⟩, ⟨3, 0, 3⟩] ⟨3, 0, 3⟩, .plan f [], none⟩)
    (by simp) rfl hsr hno (by unfold exWallSt; norm_num) (by unfold exWallSt; norm_num)
  dsimp only at this
  have e : (exWallSt [⟨0, 0, 3⟩, ⟨3, 0, 3⟩] ⟨3, 0, 3⟩).conf.replan.maxFactor = 2 := rfl
  have hstart : startNode 1 (exWallSt [⟨0, 0, 3⟩, ⟨3, 0, 3⟩] ⟨3, 0, 3⟩).gp.pos (exWallSt [⟨0, 0, 3⟩, ⟨3, 0, 3⟩] ⟨3, 0, 3⟩).gp.vel
      (exWallSt [⟨0, 0, 3⟩, ⟨3, 0, 3⟩] ⟨3, 0, 3⟩).conf.searchTime = ⟨⟨0, 0, 3⟩, ⟨0, 0, 3⟩⟩ := wall_start
  rw [hstart, wall_goal _ _ hg, e, if_pos (by norm_num)] at this
  exact this

/-- **Non-vacuity of `C111_no_last_resort`**: the same cycle meets its hypotheses. -/
example : ∃ st0 log st e f asked, st0.mem.cache = (fun _ => none) ∧ GoodWorld st0.mem.world ∧ GoodCost st0.conf.cost ∧ Run 1 st0 log st ∧
    (∀ e ∈ log, SaneEvent e.ev) ∧ e ∈ log ∧ e.ev = .plan f asked ∧ searches 1 e.st ∧ foundIn 1 e = none := by
  obtain ⟨f, st', hrun, hsr, hno⟩ := wall_closed
  exact ⟨_, _, _, ⟨exWallSt [⟨0, 0, 3⟩, ⟨3, 0, 3⟩] ⟨3, 0, 3⟩, .plan f [], none⟩, f, [], rfl, exGWorld_good _, wall_cost _ _, hrun, by simp [SaneEvent],
    by simp, rfl, hsr, hno⟩

end Global
end Avoidance
