import Verif.GpSearchEffort
import Verif.GpNodeProps

/-!
# What counts as visited twice in the planner's searches (C53, C72)
-/

namespace Avoidance
namespace Global

variable (sc radius : ℝ) (W : RiskWorld ℝ) (C : CostCfg) (early : Cell → Bool) (k : NodeKind) (t : GoalCell ℝ)
  (heur : List Node → Node → ℝ) (pick : List ((Node × Bool) × ℝ) → ℕ)

/-- **C53**, for the planner: without smoothing the reported path visits no cell twice; otherwise it takes no edge (cell left, cell
entered) twice. -/
theorem C53_planner_no_loop (hW : GoodWorld W) (hC : GoodCost C) (s : Node) (max n : ℕ) {path : List Node} {it : ℕ}
    (h : findSmoothPath (plannerProblem sc radius W C early k t heur pick) s max n = some (some path, it)) :
    (k = .withoutSmooth → (path.map Node.cell).Nodup) ∧ (path.map fun n => (n.parent, n.cell)).Nodup := by
  obtain ⟨-, -, -, hn⟩ := C53_path_legal _ (planner_nonneg sc radius W C early k t heur pick hW hC) s max n h
  have hn' : (path.map (nodeKey k)).Nodup := hn
  rw [List.nodup_map_iff_inj_on (List.Nodup.of_map _ hn')] at hn'
  constructor
  · intro hk
    rw [List.nodup_map_iff_inj_on (List.Nodup.of_map _ hn)]
    intro a ha b hb hab
    refine hn' a ha b hb ?_
    rw [hk]
    unfold nodeKey
    dsimp only
    rw [hab]
  · rw [List.nodup_map_iff_inj_on (List.Nodup.of_map _ hn)]
    intro a ha b hb hab
    refine hn' a ha b hb ?_
    obtain ⟨h1, h2⟩ := Prod.mk.inj hab
    unfold nodeKey
    cases k <;> simp only [h1, h2]

/-- **C72**, for the planner: the iterations reported are expansions of different places. Without smoothing they are so many different
cells, each expanded once; with smoothing or speed they are so many different edges. -/
theorem C72_planner_effort (hW : GoodWorld W) (hC : GoodCost C) (s : Node) (max n : ℕ) {o : Option (List Node)} {it : ℕ}
    (h : findSmoothPath (plannerProblem sc radius W C early k t heur pick) s max n = some (o, it)) :
    (k = .withoutSmooth → ∃ cells : List Cell, cells.Nodup ∧ cells.length = it ∧ ∀ c ∈ cells, ¬ t.withinPlan sc c) ∧
    (k ≠ .withoutSmooth → ∃ edges : List (Cell × Cell), edges.Nodup ∧ edges.length = it ∧ ∀ e ∈ edges, ¬ t.withinPlan sc e.1) := by
  obtain ⟨keys, ⟨h1, h2⟩, h3⟩ := C72_effort _ (planner_nonneg sc radius W C early k t heur pick hW hC) s max n h
  have h4 : ∀ x ∈ keys, ∃ a : Node, nodeKey k a = x ∧ ¬ t.withinPlan sc a.cell := by
    intro x hx
    obtain ⟨a, c, ha, hg, -⟩ := h2 x hx
    exact ⟨a, ha, of_decide_eq_false hg⟩
  constructor
  · intro hk
    subst hk
    refine ⟨keys.map Prod.fst, ?_, by rw [List.length_map]; exact h3, ?_⟩
    · rw [List.nodup_map_iff_inj_on h1]
      intro x hx y hy hxy
      obtain ⟨a, rfl, -⟩ := h4 x hx
      obtain ⟨b, rfl, -⟩ := h4 y hy
      unfold nodeKey at hxy ⊢
      dsimp only at hxy ⊢
      rw [hxy]
    · intro c hc
      obtain ⟨x, hx, rfl⟩ := List.mem_map.mp hc
      obtain ⟨a, rfl, ha⟩ := h4 x hx
      exact ha
  · intro hk
    refine ⟨keys.map (fun x => (x.1, x.2.getD x.1)), ?_, by rw [List.length_map]; exact h3, ?_⟩
    · rw [List.nodup_map_iff_inj_on h1]
      intro x hx y hy hxy
      obtain ⟨a, rfl, -⟩ := h4 x hx
      obtain ⟨b, rfl, -⟩ := h4 y hy
      obtain ⟨e1, e2⟩ := Prod.mk.inj hxy
      unfold nodeKey at e1 e2 ⊢
      cases k with
      | withoutSmooth => exact absurd rfl hk
      | _ =>
        dsimp only [Option.getD] at e1 e2 ⊢
        rw [e1, e2]
    · intro c hc
      obtain ⟨x, hx, rfl⟩ := List.mem_map.mp hc
      obtain ⟨a, rfl, ha⟩ := h4 x hx
      unfold nodeKey
      cases k <;> exact ha

/-- Non-vacuity: every search of the planner has a result. -/
example (hW : GoodWorld W) (hC : GoodCost C) (s : Node) (max : ℕ) :
    ∃ n o it, findSmoothPath (plannerProblem sc radius W C early k t heur pick) s max n = some (o, it) := by
  obtain ⟨n, r, h⟩ := C53_terminates _ (planner_nonneg sc radius W C early k t heur pick hW hC) s max
  exact ⟨n, r.1, r.2, h n le_rfl⟩

end Global
end Avoidance
