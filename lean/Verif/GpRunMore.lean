import Verif.GpRunProps
import Mathlib.Tactic.NormNum

/-!
# C101: every planning cycle ends; what is not checked
-/

namespace Avoidance
namespace Global

set_option linter.unusedSectionVars false

noncomputable section

/-! ## Planning cycles exist -/

theorem find2D_ends {C : OldCfg ℝ} {risk : Cell → Option ℝ} (h : GoodOld C risk) (sc : ℝ) (s t : Cell) (pick : List ((Cell × Bool) × ℝ) → ℕ) (max : ℕ) :
    ∃ m o, find2DPath sc C risk s t pick max m = some o := by
  have key : ∀ (is3D : Bool) (s t parent : Cell), ∃ n o, ∀ m, n ≤ m → findPathOld sc C risk is3D s t parent pick max m = some o := by
    intro is3D s t parent
    obtain ⟨n, r, hr⟩ := C53_terminates (oldProblem sc C risk is3D t pick) (old_nonneg h sc is3D t pick) s max
    exact ⟨n, _, fun m hm => by rw [findPathOld_eq h, hr m hm]; rfl⟩
  obtain ⟨n1, o1, h1⟩ := key true s (aboveCell sc s C.maxAltitude) s
  obtain ⟨n2, o2, h2⟩ := key true (aboveCell sc t C.maxAltitude) t (aboveCell sc t C.maxAltitude)
  obtain ⟨n3, o3, h3⟩ := key false (aboveCell sc s C.maxAltitude) (aboveCell sc t C.maxAltitude) (aboveCell sc s C.maxAltitude)
  refine ⟨n1 + n2 + n3, ?_⟩
  unfold find2DPath
  dsimp only
  rw [h1 _ (by omega), h2 _ (by omega), h3 _ (by omega)]
  cases o1 <;> cases o2 <;> cases o3 <;> exact ⟨_, rfl⟩

/-- `findPath` always comes to an end with the factor above 1 -/
theorem isFound_exists {sc : ℝ} {ρ : Cell → Option ℝ} (hρ : ∀ c r, ρ c = some r → 0 ≤ r) {C : GConf} (hC : GoodCost C.cost) (hmin : 1 < C.replan.minFactor)
    (st : GpSt ℝ) : ∃ f, IsFound sc ρ C st f := by
  have h1 : ∀ c : Call ℝ, ∃ p : Option (List Cell) × ℕ, ∃ heur pick m o it,
      findSmoothPath (riskProblem sc C.radius ρ C.cost (searchTurn sc st) c.kind st.goal heur pick) (startNode sc st.pos st.vel C.searchTime) c.budget m =
        some (o, it) ∧ p = (o.map (pathCells (startNode sc st.pos st.vel C.searchTime)), it) := by
    intro c
    obtain ⟨n, ⟨o, it⟩, hr⟩ := C53_terminates (riskProblem sc C.radius ρ C.cost (searchTurn sc st) c.kind st.goal (fun _ _ => 0) (fun _ => 0))
      (risk_nonneg sc C.radius ρ hρ C.cost hC _ c.kind st.goal _ _) (startNode sc st.pos st.vel C.searchTime) c.budget
    exact ⟨_, _, _, n, o, it, hr n (le_refl _), rfl⟩
  choose search hsearch using h1
  obtain ⟨n, r, hr⟩ := C55_terminates C.replan search st.maxIter (Or.inl hmin)
  obtain ⟨m, o, ho⟩ := find2D_ends (C := C.old r.factor) (risk := ρ) ⟨hC.riskFactor, hC.up, hC.down, hρ⟩ sc
    (startNode sc st.pos st.vel C.searchTime).cell st.goal.cell (fun _ => 0) 5000
  have hfp : ∃ f, findPath C.replan search (fun _ => o) st.maxIter n = some f := by
    unfold findPath
    rw [hr n (le_refl _)]
    dsimp only
    cases r.best <;> exact ⟨_, rfl⟩
  obtain ⟨f, hfp⟩ := hfp
  refine ⟨f, search, fun _ => o, n, fun c => hsearch c, ?_, hfp⟩
  · intro r' hr' _
    rw [hr n (le_refl _)] at hr'
    obtain rfl := Option.some.inj hr'
    exact ⟨_, m, ho⟩

theorem askAll_defined {sc : ℝ} : ∀ (l : List Cell) (m : CacheSt ℝ), (∀ c ∈ l, ∃ r, cellRisk sc m.world c = some r) → ∃ m', askAll sc m l = some m'
  | [], m, _ => ⟨m, rfl⟩
  | c :: l, m, h => by
      have hc : ∃ x, cachedRisk sc m c = some x := by
        unfold cachedRisk
        cases m.cache c with
        | some r => exact ⟨_, rfl⟩
        | none =>
            obtain ⟨r, hr⟩ := h c List.mem_cons_self
            rw [hr]
            exact ⟨_, rfl⟩
      obtain ⟨⟨x, m1⟩, hx⟩ := hc
      unfold askAll
      rw [hx]
      dsimp only
      have hw := (cachedRisk_spec hx).1
      exact askAll_defined l m1 (fun d hd => by rw [hw]; exact h d (List.mem_cons_of_mem _ hd))

/-- **C101**: the node never gets stuck: in every run, with a minimum overestimation above 1 and a robot that is not larger than a map cell, the next planning
cycle has a result, whatever the map, the goal and the history. -/
theorem C101_cycle_ends_partial (sc : ℝ) (st0 : GlobalSt) (h0 : st0.mem.cache = fun _ => none) (hw : GoodWorld st0.mem.world) (hc : GoodCost st0.conf.cost)
    {log : List Entry} {st : GlobalSt} (h : Run sc st0 log st) (hs : ∀ e ∈ log, SaneEvent e.ev) (hmin : 1 < st.conf.replan.minFactor)
    (hr : 0 < st.mem.world.robotRadius) (hle : st.mem.world.robotRadius ≤ st.mem.world.resolution) (asked : List Cell) :
    ∃ f st', Run sc st0 (log ++ [⟨st, .plan f asked, none⟩]) st' := by
  obtain ⟨f, hf⟩ := isFound_exists (sc := sc) (fun c r => run_risk h h0 hw hc hs c r) (run_sane h hw hc hs).2 hmin (cycleStart sc st.gp)
  obtain ⟨m, hm⟩ := askAll_defined (sc := sc) asked st.mem (fun c _ =>
    ((C60_cell_risk sc st.mem.world (run_sane h hw hc hs).1 c hr (lt_of_lt_of_le hr hle)).1).mpr hle)
  have hstep : ∃ st', gStep sc st (.plan f asked) = some (st', none) := by
    unfold gStep planTick
    dsimp only
    rw [hm]
    exact ⟨_, rfl⟩
  obtain ⟨st', hstep⟩ := hstep
  exact ⟨f, st', Run.step h (fun _ => hf) hstep⟩

/-! ## The start cell is not checked -/

/-- a search that starts inside the goal returns the start cell, whatever its risk -/
theorem found_start_in_goal {sc : ℝ} {ρ : Cell → Option ℝ} {C : GConf} {st : GpSt ℝ} {f : Found ℝ} (hf : IsFound sc ρ C st f)
    (hin : st.goal.withinPlan sc (startNode sc st.pos st.vel C.searchTime).cell) (hmm : C.replan.minFactor ≤ C.replan.maxFactor) (hit : 0 < st.maxIter) :
    f.path = some [(startNode sc st.pos st.vel C.searchTime).parent, (startNode sc st.pos st.vel C.searchTime).cell] := by
  obtain ⟨search, fallback, n, h1, _, h3⟩ := hf
  obtain ⟨r, hr, _, h4⟩ := C55_result C.replan search fallback st.maxIter n f h3
  obtain ⟨hS, _, _⟩ := C55_schedule C.replan search st.maxIter n r hr
  have hsr : ∀ c ∈ r.calls, (search c).1 = some [(startNode sc st.pos st.vel C.searchTime).parent, (startNode sc st.pos st.vel C.searchTime).cell] := by
    intro c hc
    obtain ⟨i, hi⟩ := List.getElem?_of_mem hc
    have hb := (hS i c hi).2.2.2.2.1
    obtain ⟨heur, pick, m, o, it, g1, g2⟩ := h1 c
    cases m with
    | zero => exact absurd g1 (by unfold findSmoothPath runLoop; simp)
    | succ m =>
        rw [findSmooth_start_in_goal _ _ (by
          show decide (st.goal.withinPlan sc (startNode sc st.pos st.vel C.searchTime).cell) = true
          exact decide_eq_true hin) c.budget m hb] at g1
        obtain ⟨rfl, rfl⟩ := Prod.mk.inj (Option.some.inj g1)
        rw [g2]
        rfl
  have hne := C55_searches C.replan search st.maxIter n r hr hmm hit
  rcases h4 with ⟨p, hp, hfp, _⟩ | ⟨hnil, _⟩
  · have hmem := List.mem_of_getLast? hp
    rw [List.mem_filterMap] at hmem
    obtain ⟨c, hc, hcp⟩ := hmem
    rw [hfp, ← hcp, hsr c hc]
  · exfalso
    obtain ⟨c, l, hcl⟩ := List.exists_cons_of_ne_nil hne
    have := hsr c (by rw [hcl]; exact List.mem_cons_self)
    rw [hcl, List.filterMap_cons, this] at hnil
    exact absurd hnil (by simp)

/-! ### A run -/

def exGConf : GConf :=
  { cost := ⟨10, 1 / 5, 20, 500, 5, 1⟩, speed := ⟨1 / 2, 1, 3, false, true⟩, replan := ⟨103 / 100, 2, .speed⟩, mustBeFree := true, radius := 5,
    searchTime := 1 / 2, minAltitude := 1, simplifyIterations := 1, simplifyMargin := 101 / 100, clickAlt := 7 / 2, clickRadius := 3 }

/-- a log-odds of 1 in the cells `occ`, -1 elsewhere -/
def exTree (occ : List Cell) (c : Cell) : Option ℝ := if c ∈ occ then some 1 else some (-1)

def exGWorld (t : Option (Cell → Option ℝ)) : RiskWorld ℝ :=
  { tree := t, prob := fun lo => if 0 < lo then 1 else 0, occupied := fun _ => false, explore := 1 / 200, flow := 0, robotRadius := 1 / 2, resolution := 1 }

def exHere : V3 ℝ := ⟨1 / 2, 1 / 2, 7 / 2⟩

/-- the node after its constructor -/
def exStart : GlobalSt :=
  { gp := { pos := ⟨0, 0, 0⟩, vel := ⟨0, 0, 0⟩, goal := ⟨cellOf 1 exHere, 1, false⟩, goingBack := true, blocked := false, back := [], maxIter := 2000,
            factor := 2, path := [], waypoints := [] },
    fl := { lastGoal := ⟨exHere, 0⟩, goal := ⟨exHere, 0⟩, path := [], here := ⟨⟨0, 0, 0⟩, 0⟩, speed := 1 },
    mem := ⟨exGWorld none, fun _ => none⟩, conf := exGConf, lastMap := 0 }

theorem exStart_fresh : Fresh 1 exStart exHere := ⟨rfl, rfl, rfl, rfl, rfl, rfl, rfl, rfl⟩

theorem exGWorld_good (t : Option (Cell → Option ℝ)) : GoodWorld (exGWorld t) := by
  refine ⟨fun lo => ?_, by unfold exGWorld; norm_num, by unfold exGWorld; norm_num, by unfold exGWorld; norm_num⟩
  unfold exGWorld
  dsimp only
  split <;> norm_num

theorem exGConf_good : GoodCost exGConf.cost := by
  refine ⟨?_, ?_, ?_, ?_⟩ <;> unfold exGConf <;> norm_num

theorem exRisk_eq (t : Option (Cell → Option ℝ)) (c : Cell) : cellRisk 1 (exGWorld t) c = some (singleRisk 1 (exGWorld t) c) := by
  unfold cellRisk
  have h : ⌈(exGWorld t).robotRadius / (exGWorld t).resolution⌉ = 1 := by
    rw [Int.ceil_eq_iff]
    unfold exGWorld
    norm_num
  rw [h, (C52_flow_neighbors c 1 (by norm_num)).2.1 rfl, Option.map_some]
  congr 1
  have h0 : (exGWorld t).flow = 0 := rfl
  simp [h0]

theorem exFree (occ : List Cell) (c : Cell) (hz : 1 ≤ c.z) (hc : c ∉ occ) : singleRisk 1 (exGWorld (some (exTree occ))) c = 0 := by
  unfold singleRisk
  rw [if_neg (by omega)]
  have h1 : (exGWorld (some (exTree occ))).tree = some (exTree occ) := rfl
  rw [h1]
  dsimp only
  have h2 : exTree occ c = some (-1) := by unfold exTree; rw [if_neg hc]
  rw [h2]
  dsimp only
  have h3 : (exGWorld (some (exTree occ))).prob (-1) = 0 := by unfold exGWorld; dsimp only; rw [if_neg (by norm_num)]
  rw [if_neg (by
    intro h
    rcases h with h | h
    · exact absurd h (by simp [exGWorld])
    · norm_num at h), h3]
  unfold posterior
  simp

theorem exOcc (occ : List Cell) (c : Cell) (hz : c.z = 3) (hc : c ∈ occ) : 1 / 2 < singleRisk 1 (exGWorld (some (exTree occ))) c := by
  unfold singleRisk
  rw [if_neg (by omega)]
  have h1 : (exGWorld (some (exTree occ))).tree = some (exTree occ) := rfl
  rw [h1]
  dsimp only
  have h2 : exTree occ c = some 1 := by unfold exTree; rw [if_pos hc]
  rw [h2]
  dsimp only
  have h3 : (exGWorld (some (exTree occ))).prob 1 = 1 := by unfold exGWorld; dsimp only; rw [if_pos (by norm_num)]
  rw [if_pos (Or.inr (by norm_num)), h3]
  have h4 : altPrior (1 : ℝ) c = 833 / 10000 := by
    unfold altPrior
    rw [roundAway_centre, hz]
    dsimp only
    have hi : (if (0 : ℤ) ≤ 3 then (3 : ℤ) + 1 else 3) = 4 := by norm_num
    rw [hi, show Int.toNat 4 = 4 from rfl, show (altPriorTable (K := ℝ)).length = 25 from rfl, if_neg (by norm_num)]
    unfold altPriorTable
    rfl
  rw [h4]
  unfold posterior
  norm_num

def exHit : Cell := ⟨2, 0, 3⟩
def exGoal : Cell := ⟨2, 1, 3⟩

theorem exCell : cellOf (1 : ℝ) exHere = ⟨0, 0, 3⟩ := by
  unfold cellOf exHere
  norm_num

theorem exClick : cellOf (1 : ℝ) ⟨5 / 2, 3 / 2, 7 / 2⟩ = exGoal := by
  unfold cellOf exGoal
  norm_num

theorem exStartNode : startNode (1 : ℝ) exHere ⟨4, 0, 0⟩ (1 / 2) = ⟨exHit, ⟨-2, 0, 3⟩⟩ := by
  unfold startNode cellOf exHere exHit
  norm_num

/-- the state when the vehicle has reported its position and velocity, a map was taken and a goal was given -/
def exReady (occ : List Cell) : GlobalSt :=
  { gp := { pos := exHere, vel := ⟨4, 0, 0⟩, goal := ⟨exGoal, 3, false⟩, goingBack := false, blocked := false, back := [], maxIter := 2000,
            factor := 2, path := [], waypoints := [] },
    fl := { lastGoal := ⟨exHere, 0⟩, goal := ⟨exHere, 0⟩, path := [], here := ⟨exHere, 0⟩, speed := 1 },
    mem := ⟨exGWorld (some (exTree occ)), fun _ => none⟩, conf := exGConf, lastMap := 1 }

theorem ex_ready (occ : List Cell) : ∃ log, Run 1 exStart log (exReady occ) ∧ (∀ e ∈ log, SaneEvent e.ev) ∧ lastFound 1 log = none := by
  have r1 : gStep 1 exStart (.position ⟨exHere, 0⟩) =
      some ({ exStart with gp := { exStart.gp with pos := exHere }, fl := { exStart.fl with here := ⟨exHere, 0⟩ } }, none) := by
    unfold gStep setPose followPosition exStart
    simp
  have r2 := Run.step (Run.start (sc := 1) (st0 := exStart)) (ev := .position ⟨exHere, 0⟩) trivial r1
  have r3 := Run.step r2 (ev := .velocity ⟨4, 0, 0⟩) trivial rfl
  have r4 := Run.step r3 (ev := .map 1 1 (some (exTree occ)) 1) trivial (st' := { exReady occ with gp := { (exReady occ).gp with goal := ⟨cellOf 1 exHere, 1, false⟩, goingBack := true } }) (out := none) (by
    have hm : mapCallback (0 : ℝ) 1 1 = (1, true) := by unfold mapCallback; rw [if_neg (by norm_num)]
    unfold gStep
    dsimp only
    rw [show exStart.lastMap = 0 from rfl, hm, if_pos rfl]
    rfl)
  have r5 := Run.step r4 (ev := .click (5 / 2) (3 / 2)) trivial (st' := exReady occ) (out := none) (by
    have : cellOf (1 : ℝ) ⟨5 / 2, 3 / 2, (exReady occ).conf.clickAlt⟩ = exGoal := exClick
    unfold gStep clickGoal
    dsimp only
    rw [this]
    rfl)
  refine ⟨_, r5, ?_, ?_⟩
  · intro e he
    simp only [List.nil_append, List.mem_append, List.mem_singleton] at he
    rcases he with ((he | he) | he) | he <;> rw [he] <;> trivial
  · rw [lastFound_snoc, lastFound_snoc, lastFound_snoc, lastFound_snoc]
    rfl

theorem ex_searches (occ : List Cell) (h1 : exGoal ∉ occ) (h2 : (⟨0, 0, 3⟩ : Cell) ∉ occ) : searches 1 (exReady occ) := by
  constructor
  · rintro ⟨_, r, hr, hlt⟩
    have hg : (cycleStart 1 (exReady occ).gp).goal.cell = exGoal := by
      unfold cycleStart
      rw [if_neg]
      · rfl
      · rintro (h | h)
        · unfold GoalCell.withinPosition Cell.manhattan exReady exGoal exHere pos at h
          norm_num at h
        · exact absurd h (by simp [exReady])
    rw [hg] at hr
    have : seenRisk 1 (exReady occ).mem exGoal = some 0 := by
      unfold seenRisk cachedRisk exReady
      dsimp only
      rw [exRisk_eq, exFree occ exGoal (by decide) h1]
      rfl
    rw [this] at hr
    rw [← Option.some.inj hr] at hlt
    have : (exReady occ).conf.cost.maxCellRisk = 1 / 5 := rfl
    rw [this] at hlt
    norm_num at hlt
  · unfold isOccupied exReady
    dsimp only
    rw [exCell, exFree occ _ (by decide) h2]
    norm_num

/-- after the planning cycle the vehicle is sent to the cell `exHit` -/
theorem ex_planned (occ : List Cell) (h1 : exGoal ∉ occ) (h2 : (⟨0, 0, 3⟩ : Cell) ∉ occ) :
    ∃ log e st, Run 1 exStart (log ++ [e]) st ∧ (∀ x ∈ log ++ [e], SaneEvent x.ev) ∧ e.st = exReady occ ∧
      lastFound 1 (log ++ [e]) = some (e, [⟨-2, 0, 3⟩, exHit]) ∧ st.mem.world = exGWorld (some (exTree occ)) ∧ st.conf = exGConf ∧ st.lastMap = 1 ∧
      st.gp.pos = exHere ∧ st.gp.blocked = false ∧ st.gp.goal = ⟨exGoal, 3, false⟩ ∧ st.gp.path = [⟨-2, 0, 3⟩, exHit] ∧
      st.fl.here = ⟨exHere, 0⟩ ∧ st.fl.goal.position = exHit.toPoint 1 := by
  obtain ⟨log, hrun, hsane, _⟩ := ex_ready occ
  obtain ⟨f, st, hp⟩ := C101_cycle_ends_partial 1 exStart rfl (exGWorld_good _) exGConf_good hrun hsane (by unfold exReady exGConf; norm_num)
    (by unfold exReady exGWorld; norm_num) (by unfold exReady exGWorld; norm_num) [exGoal, ⟨-2, 0, 3⟩, exHit]
  obtain ⟨_, hgen, st', hst'⟩ := run_prefix hp (pre := log) (post := []) rfl
  have hs := ex_searches occ h1 h2
  have hf := hgen hs
  have hcy : cycleStart 1 (exReady occ).gp = (exReady occ).gp := by
    unfold cycleStart
    rw [if_neg]
    rintro (h | h)
    · unfold GoalCell.withinPosition Cell.manhattan exReady exGoal exHere pos at h
      norm_num at h
    · exact absurd h (by simp [exReady])
  dsimp only at hf
  rw [hcy] at hf
  have hsn : startNode 1 (exReady occ).gp.pos (exReady occ).gp.vel (exReady occ).conf.searchTime = ⟨exHit, ⟨-2, 0, 3⟩⟩ := exStartNode
  have hpath := found_start_in_goal hf (by
    rw [hsn]
    unfold GoalCell.withinPlan Cell.manhattan exReady exGoal exHit Cell.toPoint pos
    norm_num) (by unfold exReady exGConf; norm_num) (by unfold exReady; norm_num)
  rw [hsn] at hpath
  dsimp only at hpath
  have hfound : foundIn 1 ⟨exReady occ, .plan f [exGoal, ⟨-2, 0, 3⟩, exHit], none⟩ = some [⟨-2, 0, 3⟩, exHit] := by
    unfold foundIn
    dsimp only
    rw [if_pos hs, hpath]
  refine ⟨log, ⟨exReady occ, .plan f [exGoal, ⟨-2, 0, 3⟩, exHit], none⟩, st', ?_, ?_, rfl, ?_, ?_⟩
  · exact Run.step hrun hgen hst'
  · intro x hx
    rcases List.mem_append.mp hx with hx | hx
    · exact hsane x hx
    · rw [List.mem_singleton.mp hx]; trivial
  · rw [lastFound_snoc, hfound]
  · dsimp only at hst'
    have hpl := plan_path 1 (exReady occ) f [exGoal, ⟨-2, 0, 3⟩, exHit] none
    rw [hfound, Option.getD_some] at hpl
    unfold gStep planTick at hst'
    dsimp only at hst'
    rw [Option.map_map, Option.map_eq_some_iff] at hst'
    obtain ⟨m, hm, hst'⟩ := hst'
    obtain ⟨rfl, _⟩ := Prod.mk.inj hst'
    have hgp : plannerLoop 1 (planEnv 1 (exReady occ) f) (exReady occ).gp =
        { (exReady occ).gp with factor := f.factor, maxIter := f.maxIter, path := [⟨-2, 0, 3⟩, exHit] } := by
      have e : plannerLoop 1 (planEnv 1 (exReady occ) f) (exReady occ).gp = planPath 1 (planEnv 1 (exReady occ) f) (cycleStart 1 (exReady occ).gp) := rfl
      rw [e, hcy]
      have hg : getGlobalPath 1 (planEnv 1 (exReady occ) f) (exReady occ).gp =
          ({ (exReady occ).gp with factor := f.factor, maxIter := f.maxIter, path := [⟨-2, 0, 3⟩, exHit] }, true) := by
        unfold getGlobalPath
        rw [if_neg, if_neg]
        · have hff : (planEnv 1 (exReady occ) f).find (exReady occ).gp = f := rfl
          dsimp only
          rw [hff, hpath]
        · rw [show (planEnv 1 (exReady occ) f).occupied (cellOf 1 (exReady occ).gp.pos) = false from hs.2]
          simp
        · rintro ⟨k1, k2⟩
          refine hs.1 ⟨k1, ?_⟩
          rw [hcy]
          exact (tooRisky_iff 1 (exReady occ) f _).mp k2
      unfold planPath
      rw [hg]
      dsimp only
      rw [if_neg (by simp)]
      split
      · unfold setIntermediateGoal
        rw [if_neg (by simp)]
      · rfl
    dsimp only [Function.comp]
    rw [hgp]
    refine ⟨(askAll_spec _ hm).1, rfl, rfl, rfl, rfl, rfl, rfl, ?_, ?_⟩
    · rfl
    · rfl

theorem exHit_point : exHit.toPoint (1 : ℝ) = ⟨5 / 2, 1 / 2, 7 / 2⟩ := by
  unfold exHit Cell.toPoint pos
  norm_num

theorem ex_command {st : GlobalSt} (hc : st.conf = exGConf) (h1 : st.fl.here = ⟨exHere, 0⟩) (h2 : st.fl.goal.position = exHit.toPoint 1) :
    gStep 1 st .command = some ({ st with fl := { st.fl with speed := 1 } }, some (some ⟨⟨3 / 2, 1 / 2, 7 / 2⟩, st.fl.goal.orientation⟩)) := by
  have hn : ((⟨5 / 2, 1 / 2, 7 / 2⟩ : V3 ℝ).minus exHere).norm = 2 := by
    unfold V3.norm V3.minus exHere
    rw [Real.sqrt_eq_iff_mul_self_eq (by norm_num [V3.dot]) (by norm_num)]
    norm_num [V3.dot]
  have hset : setpoint (⟨5 / 2, 1 / 2, 7 / 2⟩ : V3 ℝ) exHere 1 = some ⟨3 / 2, 1 / 2, 7 / 2⟩ := by
    unfold setpoint
    dsimp only
    rw [hn, if_neg (by norm_num), if_neg (by norm_num)]
    unfold exHere V3.plus V3.smul V3.minus
    norm_num
  unfold gStep commandTick
  dsimp only
  rw [hc, h1, h2, exHit_point]
  have hsp : exGConf.speed.speedupHeuristics = false := rfl
  have hv : commandedSpeed exGConf.speed 0 = some 1 := by
    unfold commandedSpeed
    rw [hsp, if_neg (by simp)]
    rfl
  rw [hsp, if_neg (by simp)]
  dsimp only
  rw [hv]
  dsimp only
  rw [hset]
  rfl

/-- **Specification**: the setpoint `q` leads from `here` straight ahead, closer to the centre of the cell `c`. -/
def LeadsTo (sc : ℝ) (here : V3 ℝ) (q : V3 ℝ) (c : Cell) : Prop :=
  ∃ r, 0 < r ∧ r ≤ 1 ∧ q = here.plus (V3.smul r ((c.toPoint sc).minus here))

theorem ex_leads : LeadsTo 1 exHere ⟨3 / 2, 1 / 2, 7 / 2⟩ exHit := by
  refine ⟨1 / 2, by norm_num, by norm_num, ?_⟩
  rw [exHit_point]
  unfold exHere V3.plus V3.smul V3.minus
  norm_num

/-- **C101** (the code does not check the cell from which it plans): a run - position, velocity, map, goal, planning, command - in which the path found leads to a
cell that is occupied in the map the path was planned with, although risks above 0.2 are not permitted, and the vehicle is sent straight to it. The search starts at
the cell where the vehicle will be after `search_time_`. -/
theorem C101_occupied_start_violated : ∃ (st0 : GlobalSt) (startPos : V3 ℝ) (pre : List Entry) (e : Entry) (st : GlobalSt) (ep : Entry × List Cell) (c : Cell)
    (q : GPose ℝ ℝ) (r : ℝ),
    Fresh 1 st0 startPos ∧ GoodWorld st0.mem.world ∧ GoodCost st0.conf.cost ∧ Run 1 st0 (pre ++ [e]) st ∧ (∀ x ∈ pre ++ [e], SaneEvent x.ev) ∧
    lastFound 1 pre = some ep ∧ c ∈ ep.2.tail ∧
    cellRisk 1 ep.1.st.mem.world c = some r ∧ seenRisk 1 ep.1.st.mem c = some r ∧ ep.1.st.conf.cost.maxCellRisk < r ∧ 1 / 2 < r ∧
    e.out = some (some q) ∧ LeadsTo 1 e.st.fl.here.position q.position c := by
  obtain ⟨log, e, st, hrun, hsane, hest, hlf, hw, hconf, _, _, _, _, _, hhere, hgoal⟩ := ex_planned [exHit] (by decide) (by decide)
  have hstep := ex_command hconf hhere hgoal
  refine ⟨exStart, exHere, log ++ [e], ⟨st, .command, _⟩, _, (e, [⟨-2, 0, 3⟩, exHit]), exHit, ⟨⟨3 / 2, 1 / 2, 7 / 2⟩, st.fl.goal.orientation⟩,
    singleRisk 1 (exGWorld (some (exTree [exHit]))) exHit, exStart_fresh, exGWorld_good _, exGConf_good, Run.step hrun trivial hstep, ?_, hlf, by simp, ?_, ?_, ?_,
    exOcc _ _ rfl (by simp), rfl, ?_⟩
  · intro x hx
    rcases List.mem_append.mp hx with hx | hx
    · exact hsane x hx
    · rw [List.mem_singleton.mp hx]; trivial
  · dsimp only
    rw [hest]
    exact exRisk_eq _ _
  · dsimp only
    rw [hest]
    unfold seenRisk cachedRisk exReady
    dsimp only
    rw [exRisk_eq]
    rfl
  · dsimp only
    rw [hest]
    have : (exReady [exHit]).conf.cost.maxCellRisk = 1 / 5 := rfl
    rw [this]
    have := exOcc [exHit] exHit rfl (by simp)
    linarith
  · dsimp only
    rw [hhere]
    exact ex_leads

/-- **C101** (a path that has become blocked is still flown): a run in which a path is found, free in the map of that time; then a map arrives in which the cell the
vehicle is sent to is occupied, and the next planning cycle finds nothing; the vehicle is still sent straight to that cell. -/
theorem C101_blocked_path_flown_violated : ∃ (st0 : GlobalSt) (startPos : V3 ℝ) (pre : List Entry) (em en e : Entry) (st : GlobalSt) (ep : Entry × List Cell)
    (c : Cell) (q : GPose ℝ ℝ) (r : ℝ),
    Fresh 1 st0 startPos ∧ GoodWorld st0.mem.world ∧ GoodCost st0.conf.cost ∧ Run 1 st0 (pre ++ [em] ++ [en] ++ [e]) st ∧
    (∀ x ∈ pre ++ [em] ++ [en] ++ [e], SaneEvent x.ev) ∧
    lastFound 1 pre = some ep ∧ c ∈ ep.2.tail ∧ cellRisk 1 ep.1.st.mem.world c = some 0 ∧
    TakesMap em ∧ (∃ f asked, en.ev = .plan f asked) ∧ lastFound 1 (pre ++ [em] ++ [en]) = some ep ∧
    cellRisk 1 e.st.mem.world c = some r ∧ e.st.conf.cost.maxCellRisk < r ∧ 1 / 2 < r ∧
    e.out = some (some q) ∧ LeadsTo 1 e.st.fl.here.position q.position c := by
  obtain ⟨log, e, st, hrun, hsane, hest, hlf, hw, hconf, hlast, hpos, hblk, hgl, hpath, hhere, hgoal⟩ := ex_planned [] (by decide) (by decide)
  -- the map
  have hm : mapCallback (1 : ℝ) 2 2 = (2, true) := by unfold mapCallback; rw [if_neg (by norm_num)]
  have hmap : gStep 1 st (.map 2 2 (some (exTree [exHit, exGoal])) 1) =
      some ({ st with mem := ⟨exGWorld (some (exTree [exHit, exGoal])), fun _ => none⟩, lastMap := 2 }, none) := by
    unfold gStep
    dsimp only
    rw [hlast, hm, if_pos rfl]
    unfold cacheStep
    dsimp only
    rw [hw]
    rfl
  have hrun1 := Run.step hrun (ev := .map 2 2 (some (exTree [exHit, exGoal])) 1) trivial hmap
  generalize hst1 : ({ st with mem := ⟨exGWorld (some (exTree [exHit, exGoal])), fun _ => none⟩, lastMap := 2 } : GlobalSt) = st1 at hrun1 hmap
  have hmem1 : st1.mem = ⟨exGWorld (some (exTree [exHit, exGoal])), fun _ => none⟩ := by rw [← hst1]
  have hgp1 : st1.gp = st.gp := by rw [← hst1]
  have hfl1 : st1.fl = st.fl := by rw [← hst1]
  have hconf1 : st1.conf = exGConf := by rw [← hst1]; exact hconf
  -- the planning cycle
  have hcy : cycleStart 1 st1.gp = st1.gp := by
    unfold cycleStart
    rw [hgp1, if_neg]
    rintro (h | h)
    · rw [hgl, hpos] at h
      unfold GoalCell.withinPosition Cell.manhattan exGoal exHere pos at h
      norm_num at h
    · rw [hblk] at h; exact absurd h (by simp)
  have hrisky : ∃ r, seenRisk 1 st1.mem exGoal = some r ∧ st1.conf.cost.maxCellRisk < r := by
    refine ⟨singleRisk 1 (exGWorld (some (exTree [exHit, exGoal]))) exGoal, ?_, ?_⟩
    · rw [hmem1]
      unfold seenRisk cachedRisk
      dsimp only
      rw [exRisk_eq]
      rfl
    · rw [hconf1]
      have : exGConf.cost.maxCellRisk = 1 / 5 := rfl
      rw [this]
      have := exOcc [exHit, exGoal] exGoal rfl (by simp)
      linarith
  have hns : ¬ searches 1 st1 := by
    rintro ⟨h, _⟩
    refine h ⟨by rw [hconf1]; rfl, ?_⟩
    rw [hcy, hgp1, hgl]
    exact hrisky
  obtain ⟨m, hask⟩ := askAll_defined (sc := 1) [exGoal] st1.mem (fun c _ => by rw [hmem1]; exact ⟨_, exRisk_eq _ _⟩)
  let f : Found ℝ := { factor := 2, path := none, maxIter := 2000 }
  have hgp2 : plannerLoop 1 (planEnv 1 st1 f) st1.gp = { st1.gp with blocked := true } := by
    have e : plannerLoop 1 (planEnv 1 st1 f) st1.gp = planPath 1 (planEnv 1 st1 f) (cycleStart 1 st1.gp) := rfl
    rw [e, hcy]
    have hg : getGlobalPath 1 (planEnv 1 st1 f) st1.gp = ({ st1.gp with blocked := true }, false) := by
      unfold getGlobalPath
      rw [if_pos]
      refine ⟨by show st1.conf.mustBeFree = true; rw [hconf1]; rfl, ?_⟩
      rw [tooRisky_iff, hgp1, hgl]
      exact hrisky
    unfold planPath
    rw [hg]
    rfl
  have hplan : ∃ st2, gStep 1 st1 (.plan f [exGoal]) = some (st2, none) ∧ st2.mem.world = st1.mem.world ∧ st2.conf = st1.conf ∧
      st2.fl.here = ⟨exHere, 0⟩ ∧ st2.fl.goal.position = exHit.toPoint 1 := by
    have hp : gStep 1 st1 (.plan f [exGoal]) = some ({ st1 with
        gp := { st1.gp with blocked := true }, mem := m,
        fl := publishPath 1 st1.fl.here.orientation (fun p => nodeSimplify (simplifyCost 1 st1) p st1.conf.simplifyIterations st1.conf.simplifyMargin) st1.fl
          st1.gp.path }, none) := by
      unfold gStep planTick
      dsimp only
      rw [hask, Option.map_some, Option.map_some, hgp2]
    refine ⟨_, hp, (askAll_spec _ hask).1, rfl, ?_, ?_⟩
    · dsimp only
      rw [hgp1, hpath, hfl1]
      exact hhere
    · dsimp only
      rw [hgp1, hpath, hfl1]
      rfl
  obtain ⟨st2, hst2, hmem2, hconf2, hhere2, hgoal2⟩ := hplan
  have hrun2 := Run.step hrun1 (ev := .plan f [exGoal]) (fun h => absurd h hns) hst2
  have hstep := ex_command (hconf2.trans hconf1) hhere2 hgoal2
  refine ⟨exStart, exHere, log ++ [e], ⟨st, .map 2 2 (some (exTree [exHit, exGoal])) 1, none⟩, ⟨st1, .plan f [exGoal], none⟩, ⟨st2, .command, _⟩, _,
    (e, [⟨-2, 0, 3⟩, exHit]), exHit, ⟨⟨3 / 2, 1 / 2, 7 / 2⟩, st2.fl.goal.orientation⟩, singleRisk 1 (exGWorld (some (exTree [exHit, exGoal]))) exHit,
    exStart_fresh, exGWorld_good _, exGConf_good, Run.step hrun2 trivial hstep, ?_, hlf, by simp, ?_, ?_, ⟨_, _, rfl⟩, ?_, ?_, ?_,
    exOcc _ _ rfl (by simp), rfl, ?_⟩
  · intro x hx
    simp only [List.mem_append, List.mem_singleton] at hx hsane
    rcases hx with ((hx | hx) | hx) | hx
    · exact hsane x hx
    · rw [hx]; trivial
    · rw [hx]; trivial
    · rw [hx]; trivial
  · dsimp only
    rw [hest]
    have := exRisk_eq (some (exTree [])) exHit
    rw [exFree [] exHit (by decide) (by simp)] at this
    exact this
  · refine ⟨2, 2, some (exTree [exHit, exGoal]), 1, rfl, ?_⟩
    dsimp only
    rw [hlast]
    norm_num
  · rw [lastFound_snoc, lastFound_snoc, hlf]
    have h1 : foundIn 1 ⟨st, .map 2 2 (some (exTree [exHit, exGoal])) 1, none⟩ = none := rfl
    have h2 : foundIn 1 ⟨st1, .plan f [exGoal], none⟩ = none := by
      unfold foundIn
      dsimp only
      rw [if_neg hns]
    rw [h1, h2]
  · dsimp only
    rw [hmem2, hmem1]
    exact exRisk_eq _ _
  · dsimp only
    rw [hconf2, hconf1]
    have : exGConf.cost.maxCellRisk = 1 / 5 := rfl
    rw [this]
    have := exOcc [exHit, exGoal] exHit rfl (by simp)
    linarith
  · dsimp only
    rw [hhere2]
    exact ex_leads

/-- the hypotheses of `C101_risk_since_map_partial`, `C101_plans_partial`, `C101_on_track_partial` and `C101_setpoint_partial` are met by a run that finds a path in a free
map and sends a setpoint -/
example : ∃ log e st q, Fresh 1 exStart exHere ∧ GoodWorld exStart.mem.world ∧ GoodCost exStart.conf.cost ∧ Run 1 exStart (log ++ [e]) st ∧
    (∀ x ∈ log ++ [e], SaneEvent x.ev) ∧ (lastFound 1 log).isSome = true ∧ e.out = some (some q) ∧ q.position ≠ exHere ∧
    0 ≤ e.st.conf.speed.defaultSpeed ∧ e.st.conf.speed.defaultSpeed ≤ e.st.conf.speed.maxSpeed ∧ e.st.conf.speed.threshold ≤ 1 := by
  obtain ⟨log, e, st, hrun, hsane, _, hlf, _, hconf, _, _, _, _, _, hhere, hgoal⟩ := ex_planned [] (by decide) (by decide)
  have hstep := ex_command hconf hhere hgoal
  refine ⟨log ++ [e], ⟨st, .command, _⟩, _, ⟨⟨3 / 2, 1 / 2, 7 / 2⟩, st.fl.goal.orientation⟩, exStart_fresh, exGWorld_good _, exGConf_good,
    Run.step hrun trivial hstep, ?_, by rw [hlf]; rfl, rfl, ?_, ?_, ?_, ?_⟩
  · intro x hx
    rcases List.mem_append.mp hx with hx | hx
    · exact hsane x hx
    · rw [List.mem_singleton.mp hx]; trivial
  · unfold exHere
    intro h
    have := congrArg V3.x h
    norm_num at this
  all_goals
    dsimp only
    rw [hconf]
    unfold exGConf
    norm_num

/-! ## A goal that arrives while a path is searched -/

/-- **C101** (a goal can be lost): if a goal `g` arrives while a path to the old goal is searched, and that search fails, then `g` is taken for blocked: unless `g`
was reached or another waypoint is queued, the next cycle does not plan to `g` but to the cell of the vehicle - although no path to `g` was ever searched, whatever
the risk of `g`. If the search succeeds, the path is still the one to the old goal; and if it was poor, the next goal is a cell half way along it, with `g` to be
tried after that. -/
theorem C101_late_goal_violated {K : Type*} [Field K] [LinearOrder K] [IsStrictOrderedRing K] [FloorRing K] (sc : K) (E : PlanEnv K) (st : GpSt K) (g : GoalCell K)
    (hfree : E.mustBeFree = false) (hocc : E.occupied (cellOf sc st.pos) = false) :
    ((E.find st).path = none →
      (latePlanPath sc E st g).goal = g ∧ (latePlanPath sc E st g).blocked = true ∧
      (st.waypoints = [] → (goalForCycle sc (latePlanPath sc E st g)).1 = ⟨cellOf sc st.pos, 1, false⟩)) ∧
    (∀ p, (E.find st).path = some p →
      (latePlanPath sc E st g).path = p ∧
      ((E.find st).factor ≤ 105 / 100 ∨ p.length ≤ 10 → (latePlanPath sc E st g).goal = g) ∧
      (105 / 100 < (E.find st).factor → 10 < p.length →
        (latePlanPath sc E st g).goal = ⟨p.getD (p.length / 2) default, ((p.length / 4 : ℕ) : K), true⟩ ∧
        (latePlanPath sc E st g).waypoints = g :: st.waypoints)) := by
  have h1 : ¬ (E.mustBeFree = true ∧ tooRisky E st.goal.cell = true) := by rw [hfree]; simp
  constructor
  · intro hn
    have hl : lateGoal sc E st g = ({ setGoal st g with factor := (E.find st).factor, maxIter := (E.find st).maxIter, blocked := true }, false) := by
      unfold lateGoal
      rw [if_neg h1, if_neg (by rw [hocc]; simp)]
      dsimp only
      rw [hn]
    have hlp : latePlanPath sc E st g = { setGoal st g with factor := (E.find st).factor, maxIter := (E.find st).maxIter, blocked := true } := by
      unfold latePlanPath
      rw [hl]
      rfl
    rw [hlp]
    refine ⟨rfl, rfl, fun hw => ?_⟩
    unfold goalForCycle
    dsimp only [setGoal]
    rw [hw]
    simp
  · intro p hp
    have hl : lateGoal sc E st g = ({ setGoal st g with factor := (E.find st).factor, maxIter := (E.find st).maxIter, path := p }, true) := by
      unfold lateGoal
      rw [if_neg h1, if_neg (by rw [hocc]; simp)]
      dsimp only
      rw [hp]
    have hlp : latePlanPath sc E st g = if 105 / 100 < (E.find st).factor then
        setIntermediateGoal { setGoal st g with factor := (E.find st).factor, maxIter := (E.find st).maxIter, path := p } else
        { setGoal st g with factor := (E.find st).factor, maxIter := (E.find st).maxIter, path := p } := by
      unfold latePlanPath
      rw [hl]
      rfl
    rw [hlp]
    refine ⟨?_, ?_, ?_⟩
    · split
      · unfold setIntermediateGoal
        split <;> rfl
      · rfl
    · rintro (h | h)
      · rw [if_neg (not_lt.mpr h)]; rfl
      · split
        · unfold setIntermediateGoal
          rw [if_neg (by show ¬ 10 < p.length; omega)]; rfl
        · rfl
    · intro h h'
      rw [if_pos h]
      unfold setIntermediateGoal
      rw [if_pos (by exact h')]
      exact ⟨rfl, rfl⟩

/-- a free goal that was never searched for is given up -/
example : let st : GpSt ℚ := ⟨⟨1 / 2, 1 / 2, 7 / 2⟩, ⟨0, 0, 0⟩, ⟨⟨9, 0, 3⟩, 1, false⟩, false, false, [], 2000, 2, [], []⟩
    let E : PlanEnv ℚ := ⟨fun _ => some 0, fun _ => false, false, 1 / 5, fun _ => ⟨2, 2000, none⟩⟩
    (goalForCycle 1 (latePlanPath 1 E st ⟨⟨5, 5, 3⟩, 1, false⟩)).1 = ⟨⟨0, 0, 3⟩, 1, false⟩ := by
  intro st E
  rw [((C101_late_goal_violated 1 E st _ rfl rfl).1 rfl).2.2 rfl]
  show (⟨cellOf 1 ⟨1 / 2, 1 / 2, 7 / 2⟩, 1, false⟩ : GoalCell ℚ) = _
  unfold cellOf
  norm_num

end

end Global
end Avoidance
