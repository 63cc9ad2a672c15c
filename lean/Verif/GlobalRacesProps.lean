import Verif.GlobalRaces

/-!
# C100: the threads of the global planner and of the landing planner and their data
-/

namespace Avoidance
open AccProg

section confined
variable {T L X : Type} [DecidableEq T] [DecidableEq L] [DecidableEq X]

/-- Data that only one thread touches. -/
theorem confined_no_race {x : X} {progs : T → AccProg L X} (t0 : T) (h0 : ∀ t, t ≠ t0 → (progs t).AllSites x (fun _ _ => False) [])
    {s : AccState T L X} (h : AccReach progs s) : ¬ Race s x := by
  refine no_race (fun t u hne e he f hf _ => ?_) h
  by_cases ht : t = t0
  · have hu : u ≠ t0 := fun hu => hne (ht.trans hu.symm)
    exact absurd (allSites_mem (h0 u hu) f hf) id
  · exact absurd (allSites_mem (h0 t ht) e he) id

end confined

/-- Unfolds the programs. -/
macro "gunfold" : tactic => `(tactic| simp [globalAcc, gCallbacks, gMapCallback, gPositionCallback, gClickedCallback, gCmdLoop, gFindPath,
  gGlobalPath, gPopNextGoal, gPlannerLoop, gSetGoal, gHeuristic, gRisk, gSingleRisk, AccProg.AllSites, allSites_seqs, allSites_oneOf,
  rd, wr, once])

/-- **C100.** In the global planner no two threads ever access at the same time (one of them writing) the flown way back, the
clicked points, the stack of goals, or the planner's path: each belongs to one thread. -/
theorem C100_confined_partial (speedup clicks : Bool) (s : AccState GThr GMtx GLoc) (h : AccReach (globalAcc speedup clicks) s) :
    ¬ Race s .back ∧ ¬ Race s .clicked ∧ ¬ Race s .waypoints ∧ ¬ Race s .currPath ∧ ¬ Race s .hover := by
  refine ⟨confined_no_race .spin (fun t ht => ?_) h, confined_no_race .spin (fun t ht => ?_) h, confined_no_race .planner (fun t ht => ?_) h,
    confined_no_race .planner (fun t ht => ?_) h, confined_no_race .cmdLoop (fun t ht => ?_) h⟩ <;>
  · cases t <;> first | exact absurd rfl ht | skip
    all_goals (cases speedup <;> cases clicks <;> gunfold)

/-- Finds a way to an access. -/
syntax "ggets" : tactic
macro_rules
  | `(tactic| ggets) => `(tactic| first
      | exact AccProg.Gets.here
      | (apply AccProg.Gets.guarded (by simp); ggets)
      | (apply AccProg.Gets.loop; ggets)
      | (apply AccProg.Gets.first; ggets)
      | (apply AccProg.Gets.left; ggets)
      | (refine AccProg.Gets.second (by simp [AccProg.Passes]) ?_; ggets)
      | (apply AccProg.Gets.right; ggets))

/-- Unfolds the programs for `ggets`. -/
macro "gfind" : tactic => `(tactic| (
  simp only [globalAcc, gCallbacks, gMapCallback, gPositionCallback, gClickedCallback, gCmdLoop, gFindPath, gGlobalPath, gPopNextGoal,
    gPlannerLoop, gSetGoal, gHeuristic, gRisk, gSingleRisk, landAcc, landMain, landWorker, landCallbacks, landCmdLoop,
    List.cons_append, List.nil_append, if_true, if_false, reduceIte, Bool.false_eq_true, oneOf, seqs, rd, wr, once]
  ggets))

/-- **C100.** The map of the global planner is replaced (and the old one deleted) only while nobody reads it, exactly if
`use_speedup_heuristics_` is off (it is on by default). -/
theorem C100_map_partial (speedup clicks : Bool) :
    (∀ s, AccReach (globalAcc speedup clicks) s → ¬ Race s .octree) ↔ speedup = false := by
  constructor
  · intro h
    cases speedup with
    | false => rfl
    | true =>
      obtain ⟨s, hs, hr⟩ : ∃ s, AccReach (globalAcc true clicks) s ∧ Race s .octree :=
        race_reached (t := .spin) (u := .cmdLoop) (w := true) (w' := false) (H := [.map]) (H' := []) (by decide) (by gfind) (by gfind) (Or.inl rfl)
      exact absurd hr (h s hs)
  · rintro rfl s h
    refine no_race (fun t u hne e he f hf hwr => ?_) h
    have hs : (globalAcc false clicks .spin).AllSites .octree (fun w held => w = true → .map ∈ held) [] := by
      cases clicks <;> gunfold
    have hp : (globalAcc false clicks .planner).AllSites .octree (fun w held => w = false ∧ .map ∈ held) [] := by gunfold
    have ho : ∀ t, t ≠ .spin → t ≠ .planner → (globalAcc false clicks t).AllSites .octree (fun _ _ => False) [] := by
      intro t h1 h2
      cases t <;> first | exact absurd rfl h1 | exact absurd rfl h2 | gunfold
    have side : ∀ t : GThr, ∀ e ∈ (globalAcc false clicks t).sites .octree [], (t = .spin ∧ (e.1 = true → .map ∈ e.2)) ∨
        (t = .planner ∧ e.1 = false ∧ .map ∈ e.2) := by
      intro t e he
      by_cases h1 : t = .spin
      · subst h1; exact Or.inl ⟨rfl, allSites_mem hs e he⟩
      · by_cases h2 : t = .planner
        · subst h2; exact Or.inr ⟨rfl, allSites_mem hp e he⟩
        · exact absurd (allSites_mem (ho t h1 h2) e he) id
    rcases side t e he with ⟨h1, k1⟩ | ⟨h1, k1, k2⟩ <;> rcases side u f hf with ⟨h2, m1⟩ | ⟨h2, m1, m2⟩
    · exact absurd (h1.trans h2.symm) hne
    · refine ⟨.map, k1 ?_, m2⟩
      rcases hwr with hwr | hwr
      · exact hwr
      · rw [m1] at hwr; cases hwr
    · refine ⟨.map, k2, m1 ?_⟩
      rcases hwr with hwr | hwr
      · rw [k1] at hwr; cases hwr
      · exact hwr
    · exact absurd (h1.trans h2.symm) hne

/-- **C100.** The table of risks is free of races exactly if, in addition, no points are clicked. -/
theorem C100_risks_partial (speedup clicks : Bool) :
    (∀ s, AccReach (globalAcc speedup clicks) s → ¬ Race s .riskCache) ↔ speedup = false ∧ clicks = false := by
  constructor
  · intro h
    cases speedup with
    | true =>
      obtain ⟨s, hs, hr⟩ : ∃ s, AccReach (globalAcc true clicks) s ∧ Race s .riskCache :=
        race_reached (t := .spin) (u := .cmdLoop) (w := true) (w' := false) (H := [.map]) (H' := []) (by decide) (by gfind) (by gfind) (Or.inl rfl)
      exact absurd hr (h s hs)
    | false =>
      cases clicks with
      | false => exact ⟨rfl, rfl⟩
      | true =>
        obtain ⟨s, hs, hr⟩ : ∃ s, AccReach (globalAcc false true) s ∧ Race s .riskCache :=
          race_reached (t := .planner) (u := .spin) (w := true) (w' := false) (H := [.map]) (H' := []) (by decide) (by gfind) (by gfind) (Or.inl rfl)
        exact absurd hr (h s hs)
  · rintro ⟨rfl, rfl⟩ s h
    have hall : ∀ t, (globalAcc false false t).AllSites .riskCache (fun _ held => .map ∈ held) [] := by
      intro t; cases t <;> gunfold
    exact no_race (fun t u _ e he f hf _ => ⟨.map, allSites_mem (hall t) e he, allSites_mem (hall u) f hf⟩) h

/-- **C100, violated** (finding), whatever the settings: the position, the velocity, the goal with its flags, the tables cleared with
a new goal, the obstacle cells, the parameters, the poses being followed, the speed, the time of the last map, the travelled path and the
status are accessed by one thread while another one can be writing them. -/
theorem C100_races_violated (speedup clicks : Bool) (x : GLoc) (hx : x ∈ [GLoc.position, .velocity, .goal, .heurCache, .occupied, .params,
    .lastPos, .follow, .speed, .lastWpTime, .travelled, .status]) :
    ∃ s, AccReach (globalAcc speedup clicks) s ∧ Race s x := by
  have ps : ∀ x w w', (globalAcc speedup clicks .planner).Gets x w (fun _ => True) [.map] →
      (globalAcc speedup clicks .spin).Gets x w' (fun l => l ∉ [GMtx.map]) [] → (w = true ∨ w' = true) →
      ∃ s, AccReach (globalAcc speedup clicks) s ∧ Race s x := fun x w w' h1 h2 h3 => race_reached (by decide) h1 h2 h3
  have cs : ∀ x w w', (globalAcc speedup clicks .cmdLoop).Gets x w (fun _ => True) [] →
      (globalAcc speedup clicks .spin).Gets x w' (fun l => l ∉ ([] : List GMtx)) [] → (w = true ∨ w' = true) →
      ∃ s, AccReach (globalAcc speedup clicks) s ∧ Race s x := fun x w w' h1 h2 h3 => race_reached (by decide) h1 h2 h3
  fin_cases hx
  · exact ps _ false true (by gfind) (by gfind) (Or.inr rfl)
  · exact ps _ false true (by gfind) (by gfind) (Or.inr rfl)
  · exact ps _ false true (by gfind) (by gfind) (Or.inr rfl)
  · exact ps _ true true (by gfind) (by gfind) (Or.inr rfl)
  · exact ps _ false true (by gfind) (by gfind) (Or.inr rfl)
  · exact ps _ false true (by gfind) (by gfind) (Or.inr rfl)
  · exact cs _ false true (by gfind) (by gfind) (Or.inr rfl)
  · exact ps _ true false (by gfind) (by gfind) (Or.inl rfl)
  · exact cs _ true false (by cases speedup <;> gfind) (by gfind) (Or.inl rfl)
  · exact race_reached (t := .spin) (u := .cmdLoop) (w := true) (w' := false) (H := [.map]) (H' := []) (by decide) (by gfind) (by gfind) (Or.inl rfl)
  · exact ps _ false true (by gfind) (by gfind) (Or.inr rfl)
  · exact race_reached (t := .cmdLoop) (u := .statusLoop) (w := true) (w' := false) (H := []) (H' := []) (by decide) (by gfind) (by gfind) (Or.inl rfl)

/-- The map is shared: the planner reads it under the mutex, and the callback writes it under the mutex. -/
example : (globalAcc false false .planner).Gets .octree false (fun _ => True) [.map] ∧
    (globalAcc false false .spin).Gets .octree true (fun _ => True) [.map] ∧
    (globalAcc false false .planner).Gets .riskCache true (fun _ => True) [.map] ∧
    (globalAcc false false .spin).Gets .riskCache true (fun _ => True) [.map] ∧
    (globalAcc false false .planner).Gets .waypoints true (fun _ => True) [.map] ∧
    (globalAcc false false .spin).Gets .back true (fun _ => True) [] := ⟨by gfind, by gfind, by gfind, by gfind, by gfind, by gfind⟩

/-! ## The landing planner -/

/-- Unfolds the programs of the landing planner. -/
macro "lunfold" : tactic => `(tactic| simp [landAcc, landMain, landWorker, landCallbacks, landCmdLoop, AccProg.AllSites, allSites_seqs,
  allSites_oneOf, rd, wr, once])

/-- **C100.** In the landing planner no two threads ever access at the same time (one of them writing) the received cloud message, the
transformed cloud, the poses, the raw grid, the grids, the configuration or the status. -/
theorem C100_landing_partial (s : AccState LThr LMtx LLoc) (h : AccReach landAcc s) :
    ¬ Race s .message ∧ ¬ Race s .cloud ∧ ¬ Race s .pose ∧ ¬ Race s .rawGrid ∧ ¬ Race s .grids ∧ ¬ Race s .config ∧ ¬ Race s .status := by
  have lk : ∀ x l, (∀ t, (landAcc t).AllSites x (fun _ held => l ∈ held) []) → ¬ Race s x := fun x l hx =>
    no_race (fun t u _ e he f hf _ => ⟨l, allSites_mem (hx t) e he, allSites_mem (hx u) f hf⟩) h
  refine ⟨lk _ .cloudMsg (fun t => ?_), lk _ .transformed (fun t => ?_), confined_no_race .cmdLoop (fun t ht => ?_) h,
    confined_no_race .cmdLoop (fun t ht => ?_) h, confined_no_race .cmdLoop (fun t ht => ?_) h, confined_no_race .cmdLoop (fun t ht => ?_) h,
    confined_no_race .cmdLoop (fun t ht => ?_) h⟩
  · cases t <;> lunfold
  · cases t <;> lunfold
  all_goals (cases t <;> first | exact absurd rfl ht | lunfold)

/-- **C100, violated** (finding): the flag for a transformed cloud is read by both threads without its mutex, and the worker uses
the pointers to mutexes and condition variable while they are being set. -/
theorem C100_landing_violated (x : LLoc) (hx : x ∈ [LLoc.flag, .pointers]) : ∃ s, AccReach landAcc s ∧ Race s x := by
  fin_cases hx
  · exact race_reached (t := .worker) (u := .cmdLoop) (w := true) (w' := false) (H := [.transformed]) (H' := []) (by decide) (by gfind) (by gfind) (Or.inl rfl)
  · exact race_reached (t := .main) (u := .worker) (w := true) (w' := false) (H := []) (H' := []) (by decide) (by gfind) (by gfind) (Or.inl rfl)

/-- The guarded data is shared between the worker and the command loop. -/
example : (landAcc .worker).Gets .message false (fun _ => True) [.cloudMsg] ∧ (landAcc .cmdLoop).Gets .message true (fun _ => True) [.cloudMsg] ∧
    (landAcc .worker).Gets .cloud true (fun _ => True) [.transformed] ∧ (landAcc .cmdLoop).Gets .cloud false (fun _ => True) [.transformed] :=
  ⟨by gfind, by gfind, by gfind, by gfind⟩

end Avoidance
