import Verif.GpRunMore
import Verif.GpTight
import Verif.GpAskProps
import Verif.GpReplanProps
import Mathlib.Tactic.NormNum
import Mathlib.Tactic.Linarith
import Mathlib.Tactic.Positivity

/-!
# C122: the global planner runs with every configuration it accepts

Which callbacks of a run are undefined, and which configurations make the heuristic of the search read outside its table.
-/

namespace Avoidance
namespace Global

noncomputable section

/-! ## Specification: what the configuration file accepts -/

/-- **Specification**: the ranges of global_planner/cfg/GlobalPlannerNode.cfg (9-43) for what is modelled. -/
structure AcceptedCfg (C : GConf) (flow explore : ℝ) (maxIter : ℤ) : Prop where
  minAltitude : 0 ≤ C.minAltitude ∧ C.minAltitude ≤ 10
  maxAltitude : 0 ≤ C.cost.maxAltitude ∧ C.cost.maxAltitude ≤ 50
  maxCellRisk : 0 ≤ C.cost.maxCellRisk ∧ C.cost.maxCellRisk ≤ 1
  smooth : 0 ≤ C.cost.smooth ∧ C.cost.smooth ≤ 100
  riskFactor : 0 ≤ C.cost.riskFactor ∧ C.cost.riskFactor ≤ 1000
  flow : 0 ≤ flow ∧ flow ≤ 1
  explore : 0 ≤ explore ∧ explore ≤ 1 / 100
  up : 0 ≤ C.cost.up ∧ C.cost.up ≤ 10
  down : 0 ≤ C.cost.down ∧ C.cost.down ≤ 10
  searchTime : 0 ≤ C.searchTime ∧ C.searchTime ≤ 1
  minFactor : 1 ≤ C.replan.minFactor ∧ C.replan.minFactor ≤ 3 / 2
  maxFactor : 1 ≤ C.replan.maxFactor ∧ C.replan.maxFactor ≤ 5
  threshold : 0 ≤ C.speed.threshold ∧ C.speed.threshold ≤ 1
  defaultSpeed : 1 / 10 ≤ C.speed.defaultSpeed ∧ C.speed.defaultSpeed ≤ 10
  maxSpeed : 1 ≤ C.speed.maxSpeed ∧ C.speed.maxSpeed ≤ 10
  maxIter : 0 ≤ maxIter ∧ maxIter ≤ 10000
  clickAlt : 0 ≤ C.clickAlt ∧ C.clickAlt ≤ 10
  clickRadius : 0 ≤ C.clickRadius ∧ C.clickRadius ≤ 10
  simplifyIterations : 0 ≤ C.simplifyIterations ∧ C.simplifyIterations ≤ 100
  simplifyMargin : 0 ≤ C.simplifyMargin ∧ C.simplifyMargin ≤ 2
  radius : 0 ≤ C.radius ∧ C.radius ≤ 10

/-- **Specification**: every reconfiguration is in these ranges. -/
def AcceptedEvent : GEvent → Prop
  | .reconfigure C flow explore maxIter => AcceptedCfg C flow explore maxIter
  | _ => True

theorem accepted_cost {C : GConf} {flow explore : ℝ} {maxIter : ℤ} (h : AcceptedCfg C flow explore maxIter) : GoodCost C.cost :=
  ⟨h.smooth.1, h.riskFactor.1, h.up.1, h.down.1⟩

theorem accepted_sane {ev : GEvent} (h : AcceptedEvent ev) : SaneEvent ev := by
  cases ev with
  | reconfigure C fl ex mi =>
      have h' : AcceptedCfg C fl ex mi := h
      exact ⟨accepted_cost h', h'.flow.1, h'.explore.1, by linarith [h'.explore.2]⟩
  | _ => trivial

/-- **Specification**: a node that has just started with an accepted configuration: no map, nothing cached. -/
structure AcceptedStart (st : GlobalSt) : Prop where
  cfg : AcceptedCfg st.conf st.mem.world.flow st.mem.world.explore st.gp.maxIter
  prob : ∀ lo, 0 ≤ st.mem.world.prob lo ∧ st.mem.world.prob lo ≤ 1
  cache : st.mem.cache = fun _ => none

theorem AcceptedStart.world {st : GlobalSt} (h : AcceptedStart st) : GoodWorld st.mem.world :=
  ⟨h.prob, h.cfg.explore.1, by linarith [h.cfg.explore.2], h.cfg.flow.1⟩

/-! ## Which callbacks are undefined -/

/-- **Specification**: the callbacks with undefined behaviour. A message that is not an octree, and - if the robot is larger than a cell of the map - the first
question for the risk of a cell since the last map. -/
def IllDefined (sc : ℝ) (st : GlobalSt) : GEvent → Prop
  | .map t1 _ none _ => 1 / 5 ≤ t1 - st.lastMap
  | .plan _ asked => st.mem.world.resolution < st.mem.world.robotRadius ∧ ∃ c ∈ asked, st.mem.cache c = none
  | .command => st.conf.speed.speedupHeuristics = true ∧ st.mem.world.resolution < st.mem.world.robotRadius ∧
      st.mem.cache (cellOf sc st.fl.here.position) = none
  | _ => False

theorem cachedRisk_none {sc : ℝ} {m : CacheSt ℝ} {c : Cell} (hW : GoodWorld m.world) (hr : 0 < m.world.robotRadius) (hres : 0 < m.world.resolution) :
    cachedRisk sc m c = none ↔ m.cache c = none ∧ m.world.resolution < m.world.robotRadius := by
  have h := (C60_cell_risk sc m.world hW c hr hres).1
  unfold cachedRisk
  cases hc : m.cache c with
  | some r => simp
  | none =>
      simp only [Option.map_eq_none_iff, true_and]
      rw [← not_le, ← h]
      cases cellRisk sc m.world c <;> simp

theorem askAll_none {sc : ℝ} : ∀ (l : List Cell) {m : CacheSt ℝ}, GoodWorld m.world → 0 < m.world.robotRadius → 0 < m.world.resolution →
    (askAll sc m l = none ↔ m.world.resolution < m.world.robotRadius ∧ ∃ c ∈ l, m.cache c = none)
  | [], m, _, _, _ => by simp [askAll]
  | c :: l, m, hW, hr, hres => by
      have key := cachedRisk_none (sc := sc) (c := c) hW hr hres
      unfold askAll
      cases hx : cachedRisk sc m c with
      | none =>
          have := key.mp hx
          exact ⟨fun _ => ⟨this.2, c, by simp, this.1⟩, fun _ => rfl⟩
      | some x =>
          dsimp only
          obtain ⟨r, m1⟩ := x
          unfold cachedRisk at hx
          cases hc : m.cache c with
          | some r0 =>
              rw [hc] at hx
              obtain ⟨_, rfl⟩ := Prod.mk.inj (Option.some.inj hx)
              rw [askAll_none l hW hr hres]
              simp [hc]
          | none =>
              rw [hc] at hx
              have hle : ¬ m.world.resolution < m.world.robotRadius := fun hlt => by
                have h1 := key.mpr ⟨hc, hlt⟩
                unfold cachedRisk at h1
                rw [hc] at h1
                dsimp only at h1 hx
                rw [hx] at h1
                exact absurd h1 (by simp)
              dsimp only at hx
              rw [Option.map_eq_some_iff] at hx
              obtain ⟨r1, _, h2⟩ := hx
              obtain ⟨_, rfl⟩ := Prod.mk.inj h2
              have := askAll_none (sc := sc) l (m := { m with cache := fun d => if d = c then some r1 else m.cache d }) hW hr hres
              rw [this]
              exact ⟨fun h => absurd h.1 hle, fun h => absurd h.1 hle⟩

/-- **C122**: exactly which callbacks are undefined. In every run with accepted configurations, whatever came before, a callback is undefined exactly if it brings a map that is
not an octree (at least 0.2 s after the last map taken), or it needs the risk of a cell for the first time since the last map while the robot is larger than a cell of
the map: in planning for the cells asked for, in the command for the cell of the vehicle, if the speed is chosen by the risk. Everything else is defined. -/
theorem C122_undefined_exactly_partial (sc : ℝ) (st0 : GlobalSt) (h0 : AcceptedStart st0) {log : List Entry} {st : GlobalSt} (h : Run sc st0 log st)
    (ha : ∀ e ∈ log, AcceptedEvent e.ev) (hr : 0 < st.mem.world.robotRadius) (hres : 0 < st.mem.world.resolution) (ev : GEvent) :
    gStep sc st ev = none ↔ IllDefined sc st ev := by
  have hs : ∀ e ∈ log, SaneEvent e.ev := fun e he => accepted_sane (ha e he)
  have hW := (run_sane h h0.world (accepted_cost h0.cfg) hs).1
  cases ev with
  | position p => simp [gStep, IllDefined]
  | velocity v => simp [gStep, IllDefined]
  | obstacles cs => simp [gStep, IllDefined]
  | reconfigure C fl ex mi => simp [gStep, IllDefined]
  | fcu v p => simp [gStep, IllDefined]
  | click x y => simp [gStep, IllDefined]
  | map t1 t2 t res =>
      unfold gStep mapCallback
      dsimp only
      cases t with
      | none =>
          unfold IllDefined
          by_cases hm : t1 - st.lastMap < 1 / 5
          · rw [if_pos hm]
            simp only [Bool.false_eq_true, if_false]
            exact ⟨fun h => absurd h (by simp), fun h => absurd hm (not_lt.mpr h)⟩
          · rw [if_neg hm]
            simp only [if_true]
            exact ⟨fun _ => not_lt.mp hm, fun _ => by simp [cacheStep]⟩
      | some t =>
          unfold IllDefined
          split <;> simp [cacheStep]
  | plan f asked =>
      unfold gStep planTick IllDefined
      dsimp only
      rw [Option.map_eq_none_iff, Option.map_eq_none_iff]
      exact askAll_none asked hW hr hres
  | command =>
      unfold gStep commandTick IllDefined
      dsimp only
      rw [Option.map_eq_none_iff]
      by_cases hsp : st.conf.speed.speedupHeuristics = true
      · rw [if_pos hsp]
        have key := cachedRisk_none (sc := sc) (c := cellOf sc st.fl.here.position) hW hr hres
        cases hx : cachedRisk sc st.mem (cellOf sc st.fl.here.position) with
        | none =>
            have := key.mp hx
            exact ⟨fun _ => ⟨hsp, this.2, this.1⟩, fun _ => rfl⟩
        | some x =>
            dsimp only
            have hnn : 0 ≤ x.1 := run_risk h h0.cache h0.world (accepted_cost h0.cfg) hs _ x.1 (by unfold seenRisk; rw [hx]; rfl)
            have : ∃ v, commandedSpeed st.conf.speed x.1 = some v := by
              unfold commandedSpeed
              rw [if_pos hsp, if_neg (not_lt.mpr hnn)]
              split <;> exact ⟨_, rfl⟩
            obtain ⟨v, hv⟩ := this
            rw [hv]
            refine ⟨fun h => absurd h (by simp), fun h => ?_⟩
            rw [key.mpr ⟨h.2.2, h.2.1⟩] at hx
            exact absurd hx (by simp)
      · rw [if_neg hsp]
        have : commandedSpeed st.conf.speed 0 = some st.conf.speed.defaultSpeed := by unfold commandedSpeed; rw [if_neg hsp]
        dsimp only
        rw [this]
        exact ⟨fun h => absurd h (by simp), fun h => absurd h.1 hsp⟩

/-! ## The node never stops -/

/-- **Specification**: the same callback; what a planning cycle finds is not prescribed. -/
def SameCallback : GEvent → GEvent → Prop
  | .plan _ a, .plan _ b => a = b
  | e, e' => e = e'

/-- **Specification**: what may happen: accepted configurations with a minimum overestimation above 1, and octree maps whose cells are at least as large as the robot. -/
def Usual (robotRadius : ℝ) : GEvent → Prop
  | .reconfigure C flow explore maxIter => AcceptedCfg C flow explore maxIter ∧ 1 < C.replan.minFactor
  | .map _ _ t res => t ≠ none ∧ robotRadius ≤ res
  | _ => True

theorem usual_accepted {R : ℝ} {ev : GEvent} (h : Usual R ev) : AcceptedEvent ev := by
  cases ev with
  | reconfigure C fl ex mi => exact h.1
  | _ => trivial

/-- what a step keeps -/
theorem accept_keeps {sc : ℝ} {st st' : GlobalSt} {ev : GEvent} {out} (h : gStep sc st ev = some (st', out)) (hu : Usual st.mem.world.robotRadius ev)
    (hle : st.mem.world.robotRadius ≤ st.mem.world.resolution) (hmin : 1 < st.conf.replan.minFactor) :
    st'.mem.world.robotRadius = st.mem.world.robotRadius ∧ st'.mem.world.robotRadius ≤ st'.mem.world.resolution ∧ 1 < st'.conf.replan.minFactor := by
  cases ev with
  | position p => obtain ⟨rfl, _⟩ := Prod.mk.inj (Option.some.inj h); exact ⟨rfl, hle, hmin⟩
  | velocity v => obtain ⟨rfl, _⟩ := Prod.mk.inj (Option.some.inj h); exact ⟨rfl, hle, hmin⟩
  | obstacles cs => obtain ⟨rfl, _⟩ := Prod.mk.inj (Option.some.inj h); exact ⟨rfl, hle, hmin⟩
  | reconfigure C fl ex mi => obtain ⟨rfl, _⟩ := Prod.mk.inj (Option.some.inj h); exact ⟨rfl, hle, hu.2⟩
  | fcu v p => obtain ⟨rfl, _⟩ := Prod.mk.inj (Option.some.inj h); exact ⟨rfl, hle, hmin⟩
  | click x y => obtain ⟨rfl, _⟩ := Prod.mk.inj (Option.some.inj h); exact ⟨rfl, hle, hmin⟩
  | map t1 t2 t res =>
      unfold gStep at h
      dsimp only at h
      split at h
      · rw [Option.map_eq_some_iff] at h
        obtain ⟨m, hm, h⟩ := h
        obtain ⟨rfl, _⟩ := Prod.mk.inj h
        cases t with
        | none => exact absurd rfl hu.1
        | some t =>
            unfold cacheStep at hm
            obtain rfl := Option.some.inj hm
            exact ⟨rfl, hu.2, hmin⟩
      · obtain ⟨rfl, _⟩ := Prod.mk.inj (Option.some.inj h)
        exact ⟨rfl, hle, hmin⟩
  | plan f asked =>
      unfold gStep planTick at h
      dsimp only at h
      rw [Option.map_eq_some_iff] at h
      obtain ⟨s, hs, h⟩ := h
      obtain ⟨rfl, _⟩ := Prod.mk.inj h
      rw [Option.map_eq_some_iff] at hs
      obtain ⟨m, hm, rfl⟩ := hs
      have hw : m.world = st.mem.world := (askAll_spec asked hm).1
      dsimp only
      rw [hw]
      exact ⟨rfl, hle, hmin⟩
  | command =>
      unfold gStep commandTick at h
      dsimp only at h
      rw [Option.map_eq_some_iff] at h
      obtain ⟨s, hs, h⟩ := h
      obtain ⟨rfl, _⟩ := Prod.mk.inj h
      split at hs
      · exact absurd hs (by simp)
      · rename_i r hr
        split at hs
        · exact absurd hs (by simp)
        · obtain rfl := Option.some.inj hs
          dsimp only
          split at hr
          · have hw : r.2.world = st.mem.world := (cachedRisk_spec (m' := r.2) (r := r.1) hr).1
            rw [hw]
            exact ⟨rfl, hle, hmin⟩
          · obtain rfl := Option.some.inj hr
            exact ⟨rfl, hle, hmin⟩

/-- **C122**: the node never stops. With a robot that is not larger than a cell of the maps, for every sequence of callbacks - positions, velocities, octree maps, clouds, accepted
configurations with a minimum overestimation above 1, goals, planning cycles and commands, in any order and number - there is a run that executes them all. -/
theorem C122_never_stops_partial (sc : ℝ) (st0 : GlobalSt) (h0 : AcceptedStart st0) (hr : 0 < st0.mem.world.robotRadius)
    (hle : st0.mem.world.robotRadius ≤ st0.mem.world.resolution) (hmin : 1 < st0.conf.replan.minFactor) (evs : List GEvent)
    (hu : ∀ e ∈ evs, Usual st0.mem.world.robotRadius e) :
    ∃ log st, Run sc st0 log st ∧ List.Forall₂ SameCallback (log.map Entry.ev) evs := by
  suffices H : ∃ log st, Run sc st0 log st ∧ List.Forall₂ SameCallback (log.map Entry.ev) evs ∧ (∀ e ∈ log, AcceptedEvent e.ev) ∧
      st.mem.world.robotRadius = st0.mem.world.robotRadius ∧ st.mem.world.robotRadius ≤ st.mem.world.resolution ∧ 1 < st.conf.replan.minFactor by
    obtain ⟨log, st, h1, h2, _⟩ := H
    exact ⟨log, st, h1, h2⟩
  induction evs using List.reverseRecOn with
  | nil => exact ⟨[], st0, Run.start, List.Forall₂.nil, fun _ h => absurd h (by simp), rfl, hle, hmin⟩
  | append_singleton es ev ih =>
      obtain ⟨log, st, h1, h2, h3, h4, h5, h6⟩ := ih (fun e he => hu e (List.mem_append_left _ he))
      have hue : Usual st.mem.world.robotRadius ev := by rw [h4]; exact hu ev (by simp)
      have hr' : 0 < st.mem.world.robotRadius := by rw [h4]; exact hr
      have hs : ∀ e ∈ log, SaneEvent e.ev := fun e he => accepted_sane (h3 e he)
      have hstep : ∃ ev' st' out, SameCallback ev' ev ∧ Usual st.mem.world.robotRadius ev' ∧ Genuine sc st ev' ∧ gStep sc st ev' = some (st', out) := by
        have other : Genuine sc st ev → SameCallback ev ev → ∃ ev' st' out, SameCallback ev' ev ∧ Usual st.mem.world.robotRadius ev' ∧ Genuine sc st ev' ∧
            gStep sc st ev' = some (st', out) := by
          intro hg hsame
          cases hx : gStep sc st ev with
          | none =>
              have hill := (C122_undefined_exactly_partial sc st0 h0 h1 h3 hr' (lt_of_lt_of_le hr' h5) ev).mp hx
              cases ev with
              | map t1 t2 t res => cases t with
                | none => exact absurd rfl hue.1
                | some t => exact absurd hill (by simp [IllDefined])
              | plan f asked => exact absurd hill.1 (not_lt.mpr h5)
              | command => exact absurd hill.2.1 (not_lt.mpr h5)
              | _ => exact absurd hill (by simp [IllDefined])
          | some r => exact ⟨ev, r.1, r.2, hsame, hue, hg, hx⟩
        cases ev with
        | plan f asked =>
            obtain ⟨f', st', hrun⟩ := C101_cycle_ends_partial sc st0 h0.cache h0.world (accepted_cost h0.cfg) h1 hs h6 hr' h5 asked
            obtain ⟨_, hg, s2, hs2⟩ := run_prefix hrun (pre := log) (post := []) (e := ⟨st, .plan f' asked, none⟩) rfl
            exact ⟨.plan f' asked, s2, none, rfl, trivial, hg, hs2⟩
        | _ => exact other trivial rfl
      obtain ⟨ev', st', out, g1, g2, g3, g4⟩ := hstep
      obtain ⟨k1, k2, k3⟩ := accept_keeps g4 g2 h5 h6
      refine ⟨log ++ [⟨st, ev', out⟩], st', Run.step h1 g3 g4, ?_, ?_, k1.trans h4, k2, k3⟩
      · rw [List.map_append]
        exact List.rel_append h2 (List.Forall₂.cons g1 List.Forall₂.nil)
      · intro e he
        rcases List.mem_append.mp he with he | he
        · exact h3 e he
        · rw [List.mem_singleton] at he
          rw [he]
          exact usual_accepted g2

/-! ## The table of the heuristic -/

/-- `getHeuristic`, global_planner.cpp 315-333 with `riskHeuristic` 249-264, with the answers `ρ` of `getRisk(Cell)` (`getHeuristic` of `GpHeur` with any answers); `hist` are
the nodes pushed so far. `none`: undefined - line 260 reads outside the table, or the risk of the goal is undefined. -/
def heuristicWith (sc : ℝ) (W : RiskWorld ℝ) (ρ : Cell → Option ℝ) (C : CostCfg) (H : HeurCfg) (goal : Cell) (hist : List Node) (u : Node) : Option ℝ :=
  match (if H.useRisk = true then
      (if u.cell = goal then some 0
       else match accumulatedAt u.cell.z, accumulatedAt goal.z, ρ goal with
        | some a, some b, some r =>
          some ((u.cell.diag2D sc goal - 1) * ((1 + 6 * W.flow) * W.explore * C.riskFactor) * altPrior sc u.cell +
            ((1 + 6 * W.flow) * W.explore * C.riskFactor) * |a - b| + r * C.riskFactor)
        | _, _, _ => none)
     else some 0) with
  | none => none
  | some r => some (H.overestimate * u.cell.diag2D sc goal + altitudeHeuristic H u.cell goal + smoothnessHeuristic H u goal + r +
      (if H.useSpeedup = true then ((seenCount hist u.cell : ℕ) : ℝ) else 0))

theorem heuristicWith_cellRisk (sc : ℝ) (W : RiskWorld ℝ) (C : CostCfg) (H : HeurCfg) (goal : Cell) (hist : List Node) (u : Node) :
    heuristicWith sc W (cellRisk sc W) C H goal hist u = getHeuristic sc W C H goal hist u := rfl

/-- when the heuristic is defined -/
theorem heuristicWith_none (sc : ℝ) (W : RiskWorld ℝ) (ρ : Cell → Option ℝ) (C : CostCfg) (H : HeurCfg) (goal : Cell) (hist : List Node) (u : Node) :
    heuristicWith sc W ρ C H goal hist u = none ↔
      H.useRisk = true ∧ u.cell ≠ goal ∧ ((u.cell.z < 0 ∨ 25 ≤ u.cell.z) ∨ (goal.z < 0 ∨ 25 ≤ goal.z) ∨ ρ goal = none) := by
  have k1 := C60_risk_heuristic_index_violated u.cell.z
  have k2 := C60_risk_heuristic_index_violated goal.z
  unfold heuristicWith
  by_cases hu : H.useRisk = true
  · rw [if_pos hu]
    by_cases he : u.cell = goal
    · rw [if_pos he]
      simp [he]
    · rw [if_neg he]
      rw [← k1, ← k2]
      cases accumulatedAt u.cell.z <;> cases accumulatedAt goal.z <;> cases ρ goal <;> simp [hu, he]
  · rw [if_neg hu]
    simp [hu]

theorem node_cell_mem (sc : ℝ) (hs : 1 / 5 < sc) (n : Node) (h : n.cell ≠ n.parent) : n.cell ∈ n.cells sc := by
  have hst : 0 < n.steps := by
    have := cells_ne_nil sc n h
    unfold Node.cells at this
    by_contra h0
    have h1 : n.steps = 0 := by omega
    rw [h1] at this
    simp at this
  have hst' : (0 : ℝ) < (n.steps : ℝ) := by exact_mod_cast hst
  rw [(C83_examined sc (by linarith) n n.cell).1]
  refine ⟨n.steps, hst, le_refl _, 1 / 10, 1 / 10, Or.inl rfl, Or.inl rfl, ?_⟩
  rw [div_self hst'.ne']
  unfold InBox pos
  dsimp only
  refine ⟨⟨?_, ?_⟩, ⟨?_, ?_⟩, ⟨?_, ?_⟩⟩ <;> nlinarith

theorem cells_count (sc : ℝ) (hs : 0 < sc) (n : Node) : sc * ((n.cells sc).length : ℝ) ≤ 8 * n.length sc := by
  have h1 : (n.cells sc).length ≤ 4 * n.steps := by
    unfold Node.cells
    refine le_trans (List.dedup_sublist _).length_le ?_
    rw [List.length_flatten, List.map_map]
    have : ((List.range n.steps).map (List.length ∘ fun (i : ℕ) =>
        cellsAt sc (sampleAxis sc n.parent.x n.cell.x n.steps (i + 1)) (sampleAxis sc n.parent.y n.cell.y n.steps (i + 1))
          (sampleAxis sc n.parent.z n.cell.z n.steps (i + 1)))) = List.replicate n.steps 4 := by
      rw [List.eq_replicate_iff]
      refine ⟨by simp, fun x hx => ?_⟩
      obtain ⟨i, _, rfl⟩ := List.mem_map.mp hx
      rfl
    rw [this]
    simp [mul_comm]
  have h2 : sc * (n.steps : ℝ) ≤ 2 * n.length sc := by
    have key : ∀ d : ℤ, d ^ 2 ≤ (n.cell.x - n.parent.x) ^ 2 + (n.cell.y - n.parent.y) ^ 2 + (n.cell.z - n.parent.z) ^ 2 →
        sc * |(d : ℝ)| ≤ n.length sc := by
      intro d hd
      have hd' : (d : ℝ) ^ 2 ≤ ((n.cell.x - n.parent.x : ℤ) : ℝ) ^ 2 + ((n.cell.y - n.parent.y : ℤ) : ℝ) ^ 2 + ((n.cell.z - n.parent.z : ℤ) : ℝ) ^ 2 := by
        exact_mod_cast hd
      unfold Node.length Cell.dist3D
      apply Real.le_sqrt_of_sq_le
      unfold pos
      push_cast at hd' ⊢
      rw [mul_pow, sq_abs]
      nlinarith [mul_le_mul_of_nonneg_left hd' (sq_nonneg sc)]
    have hx := key (n.cell.x - n.parent.x) (by nlinarith [sq_nonneg (n.cell.y - n.parent.y), sq_nonneg (n.cell.z - n.parent.z)])
    have hy := key (n.cell.y - n.parent.y) (by nlinarith [sq_nonneg (n.cell.x - n.parent.x), sq_nonneg (n.cell.z - n.parent.z)])
    have hz := key (n.cell.z - n.parent.z) (by nlinarith [sq_nonneg (n.cell.x - n.parent.x), sq_nonneg (n.cell.y - n.parent.y)])
    have e : (n.steps : ℝ) = 2 * max |((n.cell.x - n.parent.x : ℤ) : ℝ)| (max |((n.cell.y - n.parent.y : ℤ) : ℝ)| |((n.cell.z - n.parent.z : ℤ) : ℝ)|) := by
      have q : ∀ z : ℤ, ((z.natAbs : ℕ) : ℝ) = |(z : ℝ)| := fun z => by rw [Nat.cast_natAbs, Int.cast_abs]
      unfold Node.steps
      rw [Nat.cast_mul, Nat.cast_max, Nat.cast_max, q, q, q, Nat.cast_ofNat]
    rw [e]
    rcases max_choice |((n.cell.x - n.parent.x : ℤ) : ℝ)| (max |((n.cell.y - n.parent.y : ℤ) : ℝ)| |((n.cell.z - n.parent.z : ℤ) : ℝ)|) with hm | hm
    · rw [hm]; linarith
    · rw [hm]
      rcases max_choice |((n.cell.y - n.parent.y : ℤ) : ℝ)| |((n.cell.z - n.parent.z : ℤ) : ℝ)| with hm2 | hm2 <;> (rw [hm2]; linarith)
  have h3 : ((n.cells sc).length : ℝ) ≤ 4 * (n.steps : ℝ) := by exact_mod_cast h1
  nlinarith [mul_le_mul_of_nonneg_left h3 hs.le]

/-- a move into the ground is not permitted, if the cells on and below the ground have a risk of at least `b` and the maximum is not above `b * sc / 8` -/
theorem legal_above_ground {sc : ℝ} (hs : 1 / 5 < sc) {ρ : Cell → Option ℝ} (hρ : ∀ c r, ρ c = some r → 0 ≤ r) {b : ℝ}
    (hb : ∀ c r, c.z < 1 → ρ c = some r → b ≤ r) {C : CostCfg} (hC : 8 * C.maxCellRisk ≤ b * sc) {n : Node} (h : moveLegal sc ρ C n) : 1 ≤ n.cell.z := by
  by_contra hz
  rw [not_le] at hz
  obtain ⟨_, r, hr, hlt⟩ := h
  have hne : n.cell ≠ n.parent := by
    intro he
    have hst : n.steps = 0 := by unfold Node.steps; rw [he]; simp
    have hl : (n.cells sc) = [] := by unfold Node.cells; rw [hst]; simp
    unfold moveRisk at hr
    rw [hl] at hr
    simp at hr
  unfold moveRisk at hr
  cases hm : (n.cells sc).mapM ρ with
  | none => rw [hm] at hr; exact absurd hr (by simp)
  | some l =>
      rw [hm] at hr
      dsimp only at hr
      split at hr
      · exact absurd hr (by simp)
      · rename_i hN
        have hpos : 0 < ((n.cells sc).length : ℝ) := by
          have : 0 < (n.cells sc).length := Nat.pos_of_ne_zero hN
          exact_mod_cast this
        rw [← Option.some_inj.mp hr] at hlt
        rw [div_mul_eq_mul_div, div_lt_iff₀ hpos] at hlt
        have hlen := cells_count sc (by linarith) n
        have hlp : 0 < n.length sc := by nlinarith
        have hsum := mapM_sum_ge (g := fun d => if decide (d = n.cell) = true then max b 0 else 0) (fun d x hd => by
          split
          · rename_i he
            rw [of_decide_eq_true he] at hd
            exact max_le (hb _ x hz hd) (hρ _ x hd)
          · exact hρ d x hd) hm
        rw [sum_indicator] at hsum
        have hone : (1 : ℝ) ≤ (((n.cells sc).filter fun d => decide (d = n.cell)).length : ℝ) := by
          have : 0 < ((n.cells sc).filter fun d => decide (d = n.cell)).length :=
            List.length_pos_of_mem (List.mem_filter.mpr ⟨node_cell_mem sc hs n hne, decide_eq_true rfl⟩)
          exact_mod_cast this
        have hb0 : 0 ≤ max b 0 := le_max_right _ _
        have hbl : max b 0 ≤ l.sum := le_trans (by nlinarith) hsum
        have hbb : b ≤ max b 0 := le_max_left _ _
        have h1 : max b 0 * n.length sc ≤ l.sum * n.length sc := mul_le_mul_of_nonneg_right hbl hlp.le
        have h2 : C.maxCellRisk * 8 ≤ max b 0 * sc := by nlinarith
        have h3 : C.maxCellRisk * ((n.cells sc).length : ℝ) * 8 ≤ max b 0 * (sc * ((n.cells sc).length : ℝ)) := by nlinarith
        have h4 : max b 0 * (sc * ((n.cells sc).length : ℝ)) ≤ max b 0 * (8 * n.length sc) := mul_le_mul_of_nonneg_left hlen hb0
        linarith

/-- searches that differ only in the heuristic of nodes that are not permitted are the same -/
theorem search_congr {ν κ K : Type*} [DecidableEq κ] [Field K] [LinearOrder K] (P : Problem ν κ K) (h' : List ν → ν → K)
    (hh : ∀ hist u, P.legal u = true → P.heur hist u = h' hist u) (s : ν) (max n : ℕ) :
    findSmoothPath P s max n = findSmoothPath { P with heur := h' } s max n := by
  have h1 : ∀ u st v, relax P u st v = relax { P with heur := h' } u st v := by
    intro u st v
    unfold relax
    dsimp only
    by_cases hl : P.legal v = true
    · rw [if_pos hl, if_pos hl]
      cases P.cost u.1 v with
      | none => rfl
      | some c =>
          dsimp only
          split
          · unfold relaxUpdate
            dsimp only
            rw [hh _ _ hl]
          · rfl
    · rw [if_neg hl, if_neg hl]
  have h2 : ∀ u st, expand P u st = expand { P with heur := h' } u st := by
    intro u st
    unfold expand
    have : relax P u = relax { P with heur := h' } u := by funext st v; exact h1 u st v
    rw [this]
  have h3 : ∀ st, iterateOnce P max st = iterateOnce { P with heur := h' } max st := by
    intro st
    unfold iterateOnce
    have : popTop P st.pq = popTop { P with heur := h' } st.pq := rfl
    rw [this]
    simp only [h2]
  have h4 : ∀ n st, runLoop P max n st = runLoop { P with heur := h' } max n st := by
    intro n
    induction n with
    | zero => intro st; rfl
    | succ n ih =>
        intro st
        unfold runLoop
        rw [h3]
        cases iterateOnce { P with heur := h' } max st with
        | running st' => exact ih st'
        | found r st' => rfl
        | stopped st' => rfl
  have h5 : ∀ st n r, walkBack P st n r = walkBack { P with heur := h' } st n r := by
    intro st n
    induction n with
    | zero => intro r; rfl
    | succ n ih =>
        intro r
        unfold walkBack
        dsimp only
        simp only [ih]
  have h6 : SearchSt.init P s = SearchSt.init { P with heur := h' } s := rfl
  unfold findSmoothPath
  rw [h4, h6]
  simp only [h5]

/-- the risk of the cells on and below the ground, in a run in which the flow parameter is never below `b` -/
theorem run_ground {sc : ℝ} {st0 : GlobalSt} (h0 : AcceptedStart st0) {log : List Entry} {st : GlobalSt} (h : Run sc st0 log st)
    (ha : ∀ e ∈ log, AcceptedEvent e.ev) {b : ℝ} (hb0 : b ≤ st0.mem.world.flow)
    (hb : ∀ e ∈ log, ∀ C flow explore maxIter, e.ev = .reconfigure C flow explore maxIter → b ≤ flow)
    (hrr : ∀ e ∈ log, 0 < e.st.mem.world.robotRadius ∧ 0 < e.st.mem.world.resolution)
    (hr : 0 < st.mem.world.robotRadius) (hres : 0 < st.mem.world.resolution) (c : Cell) (r : ℝ) (hz : c.z < 1)
    (hc : seenRisk sc st.mem c = some r) : 1 + b ≤ r := by
  have hflow : ∀ {l : List Entry} {s : GlobalSt}, Run sc st0 l s → (∀ e ∈ l, ∀ C flow explore maxIter, e.ev = .reconfigure C flow explore maxIter → b ≤ flow) →
      b ≤ s.mem.world.flow := by
    intro l s hl
    induction hl with
    | start => intro _; exact hb0
    | @step log st st' ev out hr hg hs ih =>
        intro hf
        have h1 := ih (fun e he => hf e (List.mem_append_left _ he))
        cases ev with
        | position p => obtain ⟨rfl, _⟩ := Prod.mk.inj (Option.some.inj hs); exact h1
        | velocity v => obtain ⟨rfl, _⟩ := Prod.mk.inj (Option.some.inj hs); exact h1
        | obstacles cs => obtain ⟨rfl, _⟩ := Prod.mk.inj (Option.some.inj hs); exact h1
        | reconfigure C fl ex mi =>
            obtain ⟨rfl, _⟩ := Prod.mk.inj (Option.some.inj hs)
            exact hf ⟨st, .reconfigure C fl ex mi, out⟩ (by simp) C fl ex mi rfl
        | fcu v p => obtain ⟨rfl, _⟩ := Prod.mk.inj (Option.some.inj hs); exact h1
        | click x y => obtain ⟨rfl, _⟩ := Prod.mk.inj (Option.some.inj hs); exact h1
        | map t1 t2 t res =>
            unfold gStep at hs
            dsimp only at hs
            split at hs
            · rw [Option.map_eq_some_iff] at hs
              obtain ⟨m, hm, hs⟩ := hs
              obtain ⟨rfl, _⟩ := Prod.mk.inj hs
              cases t with
              | none => exact absurd hm (by simp [cacheStep])
              | some t =>
                  unfold cacheStep at hm
                  obtain rfl := Option.some.inj hm
                  exact h1
            · obtain ⟨rfl, _⟩ := Prod.mk.inj (Option.some.inj hs)
              exact h1
        | plan f asked =>
            unfold gStep planTick at hs
            dsimp only at hs
            rw [Option.map_eq_some_iff] at hs
            obtain ⟨s, hs', hs⟩ := hs
            obtain ⟨rfl, _⟩ := Prod.mk.inj hs
            rw [Option.map_eq_some_iff] at hs'
            obtain ⟨m, hm, rfl⟩ := hs'
            have hw : m.world = st.mem.world := (askAll_spec asked hm).1
            dsimp only
            rw [hw]
            exact h1
        | command =>
            unfold gStep commandTick at hs
            dsimp only at hs
            rw [Option.map_eq_some_iff] at hs
            obtain ⟨s, hs', hs⟩ := hs
            obtain ⟨rfl, _⟩ := Prod.mk.inj hs
            split at hs'
            · exact absurd hs' (by simp)
            · rename_i r hr
              split at hs'
              · exact absurd hs' (by simp)
              · obtain rfl := Option.some.inj hs'
                dsimp only
                split at hr
                · have hw : r.2.world = st.mem.world := (cachedRisk_spec (m' := r.2) (r := r.1) hr).1
                  rw [hw]
                  exact h1
                · obtain rfl := Option.some.inj hr
                  exact h1
  have hs : ∀ e ∈ log, SaneEvent e.ev := fun e he => accepted_sane (ha e he)
  obtain ⟨pre, mid, h1, _, h3⟩ := C101_risk_since_map_partial sc st0 h0.cache h c r hc
  have fin : ∀ (s : GlobalSt) (l : List Entry), Run sc st0 l s → (∀ e ∈ l, e ∈ log) → 0 < s.mem.world.robotRadius → 0 < s.mem.world.resolution →
      cellRisk sc s.mem.world c = some r → 1 + b ≤ r := by
    intro s l hl hsub q1 q2 hcell
    have hW := (run_sane hl h0.world (accepted_cost h0.cfg) (fun e he => hs e (hsub e he))).1
    have hf := hflow hl (fun e he => hb e (hsub e he))
    have h5 := ((C60_cell_risk sc s.mem.world hW c q1 q2).2 r hcell).1
    rw [(C60_single_risk sc s.mem.world hW c).2.2 (Or.inl hz), mul_one] at h5
    linarith
  cases mid with
  | nil => exact fin st log h (fun e he => he) hr hres h3
  | cons e t =>
      refine fin e.st pre (run_prefix h h1).1 (fun x hx => by rw [h1]; exact List.mem_append_left _ hx) ?_ ?_ h3
      · exact (hrr e (by rw [h1]; simp)).1
      · exact (hrr e (by rw [h1]; simp)).2

/-- **C122**: no search reads outside the table of the heuristic, if the maximum altitude is at most 25.5 cells, the maximum risk at most an eighth of a cell times one plus the smallest
flow parameter, the goal between the altitude indices 0 and 24 and the robot not larger than a map cell (as with the default configuration): whatever memory outside the table contains
(`J`, `J'`), whatever start, node type, order of the queue and budget, the search gives the same result - in every state of every run. -/
theorem C122_search_inside_table_partial (sc : ℝ) (hsc : 1 / 2 ≤ sc) (st0 : GlobalSt) (h0 : AcceptedStart st0) {log : List Entry} {st : GlobalSt} (h : Run sc st0 log st)
    (ha : ∀ e ∈ log, AcceptedEvent e.ev) (b : ℝ) (hb0 : b ≤ st0.mem.world.flow)
    (hb : ∀ e ∈ log, ∀ C flow explore maxIter, e.ev = .reconfigure C flow explore maxIter → b ≤ flow)
    (hrr : ∀ e ∈ log, 0 < e.st.mem.world.robotRadius ∧ 0 < e.st.mem.world.resolution)
    (hr : 0 < st.mem.world.robotRadius) (hle : st.mem.world.robotRadius ≤ st.mem.world.resolution)
    (halt : 2 * (st.conf.cost.maxAltitude : ℝ) ≤ 51 * sc) (hrisk : 8 * st.conf.cost.maxCellRisk ≤ (1 + b) * sc)
    (t : GoalCell ℝ) (ht : 0 ≤ t.cell.z ∧ t.cell.z < 25) (H : HeurCfg) (early : Cell → Bool) (k : NodeKind) (pick : List ((Node × Bool) × ℝ) → ℕ)
    (J J' : List Node → Node → ℝ) (s : Node) (budget n : ℕ) :
    findSmoothPath (riskProblem sc st.conf.radius (seenRisk sc st.mem) st.conf.cost early k t
      (fun hist u => (heuristicWith sc st.mem.world (seenRisk sc st.mem) st.conf.cost H t.cell hist u).getD (J hist u)) pick) s budget n =
    findSmoothPath (riskProblem sc st.conf.radius (seenRisk sc st.mem) st.conf.cost early k t
      (fun hist u => (heuristicWith sc st.mem.world (seenRisk sc st.mem) st.conf.cost H t.cell hist u).getD (J' hist u)) pick) s budget n := by
  have hs : ∀ e ∈ log, SaneEvent e.ev := fun e he => accepted_sane (ha e he)
  have hW := (run_sane h h0.world (accepted_cost h0.cfg) hs).1
  have hres := lt_of_lt_of_le hr hle
  refine search_congr (riskProblem sc st.conf.radius (seenRisk sc st.mem) st.conf.cost early k t
      (fun hist u => (heuristicWith sc st.mem.world (seenRisk sc st.mem) st.conf.cost H t.cell hist u).getD (J hist u)) pick) _ ?_ s budget n
  intro hist u hu
  have hl : moveLegal sc (seenRisk sc st.mem) st.conf.cost u := by classical exact of_decide_eq_true hu
  have hlow := legal_above_ground (by linarith) (fun c r hc => run_risk h h0.cache h0.world (accepted_cost h0.cfg) hs c r hc)
    (fun c r hz hc => run_ground h0 h ha hb0 hb hrr hr hres c r hz hc) hrisk hl
  have hhigh : u.cell.z < 25 := by
    have h1 := hl.1
    unfold pos at h1
    by_contra hz
    rw [not_lt] at hz
    have : (25 : ℝ) ≤ (u.cell.z : ℝ) := by exact_mod_cast hz
    nlinarith
  have hgoal : seenRisk sc st.mem t.cell ≠ none := by
    intro hn
    unfold seenRisk at hn
    rw [Option.map_eq_none_iff] at hn
    exact absurd ((cachedRisk_none hW hr hres).mp hn).2 (not_lt.mpr hle)
  have hd : heuristicWith sc st.mem.world (seenRisk sc st.mem) st.conf.cost H t.cell hist u ≠ none := by
    rw [Ne, heuristicWith_none]
    rintro ⟨_, _, h1 | h1 | h1⟩
    · omega
    · omega
    · exact hgoal h1
  show (heuristicWith sc st.mem.world (seenRisk sc st.mem) st.conf.cost H t.cell hist u).getD (J hist u) =
    (heuristicWith sc st.mem.world (seenRisk sc st.mem) st.conf.cost H t.cell hist u).getD (J' hist u)
  cases hx : heuristicWith sc st.mem.world (seenRisk sc st.mem) st.conf.cost H t.cell hist u with
  | none => exact absurd hx hd
  | some x => rfl

/-! ## What is accepted but does not work -/

/-- after the neighbours of `u` have been looked at, a node with the identity of each permitted one has been pushed -/
theorem expand_pushes {ν κ K : Type*} [DecidableEq κ] [Field K] [LinearOrder K] (P : Problem ν κ K) (u : Ref ν) (k0 : κ) : ∀ (l : List ν) (st : SearchSt ν κ K),
    (∀ k x, st.dist k = some x → k = k0 ∨ ∃ w ∈ st.pushed, P.key w = k) →
    (∀ w ∈ st.pushed, w ∈ (l.foldl (relax P u) st).pushed) ∧
    ∀ v ∈ l, P.legal v = true → P.cost u.1 v ≠ none → P.key v ≠ k0 → ∃ w ∈ (l.foldl (relax P u) st).pushed, P.key w = P.key v
  | [], st, _ => ⟨fun _ h => h, fun _ h => absurd h (by simp)⟩
  | a :: l, st, hinv => by
      rw [List.foldl_cons]
      have one : (∀ w ∈ st.pushed, w ∈ (relax P u st a).pushed) ∧
          (∀ k x, (relax P u st a).dist k = some x → k = k0 ∨ ∃ w ∈ (relax P u st a).pushed, P.key w = k) ∧
          (P.legal a = true → P.cost u.1 a ≠ none → P.key a ≠ k0 → ∃ w ∈ (relax P u st a).pushed, P.key w = P.key a) := by
        unfold relax
        split
        · cases hc : P.cost u.1 a with
          | none => exact ⟨fun _ h => h, hinv, fun _ h => absurd rfl h⟩
          | some c =>
              dsimp only
              split
              · unfold relaxUpdate
                dsimp only
                refine ⟨fun w hw => List.mem_cons_of_mem _ hw, fun k x hk => ?_, fun _ _ _ => ⟨a, by simp, rfl⟩⟩
                by_cases hka : k = P.key a
                · exact Or.inr ⟨a, by simp, hka.symm⟩
                · rw [if_neg hka] at hk
                  rcases hinv k x hk with h | ⟨w, hw, h⟩
                  · exact Or.inl h
                  · exact Or.inr ⟨w, List.mem_cons_of_mem _ hw, h⟩
              · rename_i hb
                refine ⟨fun _ h => h, hinv, fun _ _ hne => ?_⟩
                cases hd : st.dist (P.key a) with
                | none => rw [hd] at hb; exact absurd trivial hb
                | some x =>
                    rcases hinv _ x hd with h | h
                    · exact absurd h hne
                    · exact h
        · rename_i hl
          exact ⟨fun _ h => h, hinv, fun h => absurd h hl⟩
      obtain ⟨o1, o2, o3⟩ := one
      obtain ⟨r1, r2⟩ := expand_pushes P u k0 l (relax P u st a) o2
      refine ⟨fun w hw => r1 w (o1 w hw), fun v hv hl hc hne => ?_⟩
      rcases List.mem_cons.mp hv with rfl | hv
      · obtain ⟨w, hw, h⟩ := o3 hl hc hne
        exact ⟨w, r1 w hw, h⟩
      · exact r2 v hv hl hc hne

/-- **C122** (violated): a search from a start outside the goal pushes, already in its first step, a node in the cell of every permitted neighbour - and if that cell (not the goal's) has
an altitude index of 25 or more, or a negative one, or the goal has, then with the risk heuristic its priority is computed from memory outside the table. The configuration file accepts maximum
altitudes up to 50 m. -/
theorem C122_outside_table_violated (sc radius : ℝ) (W : RiskWorld ℝ) (ρ : Cell → Option ℝ) (C : CostCfg) (H : HeurCfg) (hH : H.useRisk = true) (early : Cell → Bool)
    (k : NodeKind) (t : GoalCell ℝ) (heur : List Node → Node → ℝ) (pick : List ((Node × Bool) × ℝ) → ℕ) (s v : Node) (hs : ¬ t.withinPlan sc s.cell)
    (hv : v ∈ nodeNeighbors sc radius k s) (hl : moveLegal sc ρ C v) (hne : v.cell ≠ t.cell)
    (hz : (v.cell.z < 0 ∨ 25 ≤ v.cell.z) ∨ (t.cell.z < 0 ∨ 25 ≤ t.cell.z)) :
    ∃ st, runLoop (riskProblem sc radius ρ C early k t heur pick) 1 2 (SearchSt.init (riskProblem sc radius ρ C early k t heur pick) s) = some (none, st) ∧
      ∃ w ∈ st.pushed, w.cell = v.cell ∧ ∀ hist, heuristicWith sc W ρ C H t.cell hist w = none := by
  classical
  have hpar : v.parent = s.cell := by
    unfold nodeNeighbors at hv
    cases k with
    | speed =>
        dsimp only at hv
        rcases List.mem_cons.mp hv with rfl | hv
        · rfl
        · obtain ⟨c, _, rfl⟩ := List.mem_map.mp hv
          rfl
    | _ =>
        obtain ⟨c, _, rfl⟩ := List.mem_map.mp hv
        rfl
  obtain ⟨hl1, r, hr, hl2⟩ := hl
  have hcne : v.cell ≠ s.cell := by
    intro he
    have hst : v.steps = 0 := by unfold Node.steps; rw [hpar, he]; simp
    have hnil : v.cells sc = [] := by unfold Node.cells; rw [hst]; simp
    unfold moveRisk at hr
    rw [hnil] at hr
    simp at hr
  set P := riskProblem sc radius ρ C early k t heur pick with hP
  set st1 : SearchSt Node (Cell × Option Cell) ℝ := { SearchSt.init P s with pq := [], seen := [P.key s], iter := 1 } with hst1
  have h1 : iterateOnce P 1 (SearchSt.init P s) = .running (expand P (s, true) st1) := by
    unfold iterateOnce SearchSt.init
    rw [if_pos (by norm_num)]
    have hp : popTop P [((s, true), (0 : ℝ))] = some (((s, true), 0), []) := by
      unfold popTop
      simp [Nat.mod_one]
    dsimp only
    rw [hp]
    dsimp only
    rw [if_neg (by simp), if_neg (by
      have : P.goal s = decide (t.withinPlan sc s.cell) := rfl
      rw [this, decide_eq_false hs]
      simp)]
    rfl
  have hiter : ∀ (l : List Node) (st : SearchSt Node (Cell × Option Cell) ℝ), (l.foldl (relax P (s, true)) st).iter = st.iter := by
    intro l
    induction l with
    | nil => intro st; rfl
    | cons a l ih =>
        intro st
        rw [List.foldl_cons, ih]
        unfold relax relaxUpdate
        split
        · split
          · rfl
          · split <;> rfl
        · rfl
  have h2 : iterateOnce P 1 (expand P (s, true) st1) = .stopped (expand P (s, true) st1) := by
    unfold iterateOnce
    rw [if_neg]
    unfold expand
    rw [hiter]
    simp [hst1]
  obtain ⟨_, hpush⟩ := expand_pushes P (s, true) (P.key s) (P.nbrs s) st1 (by
    intro k' x hk
    left
    by_contra hn
    have : st1.dist k' = none := if_neg hn
    rw [this] at hk
    exact absurd hk (by simp))
  obtain ⟨w, hw, hkey⟩ := hpush v hv (decide_eq_true (⟨hl1, r, hr, hl2⟩ : moveLegal sc ρ C v)) (by
      show moveCost sc ρ C early k s v ≠ none
      unfold moveCost
      rw [hr]
      simp) (fun he => hcne (nodeKey_cell (k := k) he))
  refine ⟨expand P (s, true) st1, ?_, w, hw, nodeKey_cell (k := k) hkey, fun hist => ?_⟩
  · unfold runLoop
    rw [h1]
    dsimp only
    unfold runLoop
    rw [h2]
  · rw [heuristicWith_none, nodeKey_cell (k := k) hkey]
    exact ⟨hH, hne, by rcases hz with h | h; exact Or.inl h; exact Or.inr (Or.inl h)⟩

/-- **C122** (violated): with a minimum overestimation of 1, which the configuration file accepts, a planning cycle that searches while the predicted cell of the vehicle is in its goal never
ends: there is nothing it could find, whatever map, goal and history. -/
theorem C122_hover_hangs_violated (sc : ℝ) (st : GlobalSt) (asked : List Cell) (hs : searches sc st) (hmin : st.conf.replan.minFactor ≤ 1)
    (hmax : 1 ≤ st.conf.replan.maxFactor) (hm : 0 < st.gp.maxIter)
    (hin : (cycleStart sc st.gp).goal.withinPlan sc (startNode sc st.gp.pos st.gp.vel st.conf.searchTime).cell) : ¬ ∃ f, Genuine sc st (.plan f asked) := by
  classical
  rintro ⟨f, hg⟩
  obtain ⟨search, fallback, n, h1, _, h3⟩ := hg hs
  obtain ⟨f1, f2, _⟩ := cycleStart_frame sc st.gp
  have fm : (cycleStart sc st.gp).maxIter = st.gp.maxIter := by
    unfold cycleStart popNextGoal stop setGoal
    split
    · cases st.gp.waypoints with
      | nil => dsimp only; split <;> rfl
      | cons g l => rfl
    · rfl
  have hnone : replan st.conf.replan search (cycleStart sc st.gp).maxIter n = none := by
    refine C55_minimum_one_hangs_violated st.conf.replan search hmin hmax (fun c hc => ?_) _ (by rw [fm]; exact hm) n
    obtain ⟨heur, pick, m, o, it, g1, g2⟩ := h1 c
    rw [f1, f2] at g1 g2
    cases m with
    | zero => exact absurd g1 (by unfold findSmoothPath runLoop; simp)
    | succ m =>
        have h4 := findSmooth_start_in_goal (riskProblem sc st.conf.radius (seenRisk sc st.mem) st.conf.cost (searchTurn sc (cycleStart sc st.gp)) c.kind
          (cycleStart sc st.gp).goal heur pick) (startNode sc st.gp.pos st.gp.vel st.conf.searchTime) (decide_eq_true hin) c.budget m hc
        rw [h4, Option.some.injEq, Prod.mk.injEq] at g1
        rw [g2, ← g1.1, ← g1.2]
        exact ⟨rfl, rfl⟩
  unfold findPath at h3
  rw [hnone] at h3
  exact absurd h3 (by simp)

/-! ## Examples -/

theorem exAccepted (alt : ℤ) (ha : 0 ≤ alt ∧ alt ≤ 50) (mf : ℝ) (hm : 1 ≤ mf ∧ mf ≤ 3 / 2) :
    AcceptedCfg { exGConf with cost := { exGConf.cost with maxAltitude := alt }, replan := { exGConf.replan with minFactor := mf } } 0 (1 / 200) 2000 := by
  refine ⟨?_, ha, ?_, ?_, ?_, ?_, ?_, ?_, ?_, ?_, hm, ?_, ?_, ?_, ?_, ?_, ?_, ?_, ?_, ?_, ?_⟩ <;> norm_num [exGConf]

theorem exStart_accepted : AcceptedStart exStart :=
  ⟨exAccepted 10 (by norm_num) (103 / 100) (by norm_num), (exGWorld_good none).prob, rfl⟩

/-- the state after a run with a map without obstacles, a goal, and a reconfiguration of maximum altitude and minimum overestimation -/
theorem exTuned (alt : ℤ) (ha : 0 ≤ alt ∧ alt ≤ 50) (mf : ℝ) (hm : 1 ≤ mf ∧ mf ≤ 3 / 2) :
    ∃ log, Run 1 exStart log { exReady [] with conf := { exGConf with cost := { exGConf.cost with maxAltitude := alt }, replan := { exGConf.replan with minFactor := mf } } } ∧
      ∀ e ∈ log, AcceptedEvent e.ev := by
  have r1 : gStep 1 exStart (.position ⟨exHere, 0⟩) =
      some ({ exStart with gp := { exStart.gp with pos := exHere }, fl := { exStart.fl with here := ⟨exHere, 0⟩ } }, none) := by
    unfold gStep setPose followPosition exStart
    simp
  have r2 := Run.step (Run.start (sc := 1) (st0 := exStart)) (ev := .position ⟨exHere, 0⟩) trivial r1
  have r3 := Run.step r2 (ev := .velocity ⟨4, 0, 0⟩) trivial rfl
  have r4 := Run.step r3 (ev := .map 1 1 (some (exTree [])) 1) trivial (st' := { exReady [] with gp := { (exReady []).gp with goal := ⟨cellOf 1 exHere, 1, false⟩, goingBack := true } }) (out := none) (by
    have hm : mapCallback (0 : ℝ) 1 1 = (1, true) := by unfold mapCallback; rw [if_neg (by norm_num)]
    unfold gStep
    dsimp only
    rw [show exStart.lastMap = 0 from rfl, hm, if_pos rfl]
    rfl)
  have r5 := Run.step r4 (ev := .click (5 / 2) (3 / 2)) trivial (st' := exReady []) (out := none) (by
    have : cellOf (1 : ℝ) ⟨5 / 2, 3 / 2, (exReady []).conf.clickAlt⟩ = exGoal := exClick
    unfold gStep clickGoal
    dsimp only
    rw [this]
    rfl)
  have r6 := Run.step r5 (ev := .reconfigure { exGConf with cost := { exGConf.cost with maxAltitude := alt }, replan := { exGConf.replan with minFactor := mf } } 0 (1 / 200) 2000)
    trivial rfl
  refine ⟨_, r6, ?_⟩
  intro e he
  simp only [List.nil_append, List.mem_append, List.mem_singleton] at he
  rcases he with (((he | he) | he) | he) | he
  · rw [he]; trivial
  · rw [he]; trivial
  · rw [he]; trivial
  · rw [he]; trivial
  · rw [he]; exact exAccepted alt ha mf hm

/-- non-vacuity of `C122_undefined_exactly_partial`: a run of five callbacks, after which planning and the command are defined -/
example : ∃ log st, Run 1 exStart log st ∧ (∀ e ∈ log, AcceptedEvent e.ev) ∧ gStep 1 st .command ≠ none ∧ gStep 1 st (.map 2 2 none 1) = none := by
  obtain ⟨log, hrun, hacc⟩ := exTuned 10 (by norm_num) (103 / 100) (by norm_num)
  refine ⟨log, _, hrun, hacc, ?_, ?_⟩
  · rw [Ne, C122_undefined_exactly_partial 1 exStart exStart_accepted hrun hacc (by simp [exReady, exGWorld]) (by simp [exReady, exGWorld])]
    intro h
    exact absurd h.1 (by simp [exGConf])
  · rw [C122_undefined_exactly_partial 1 exStart exStart_accepted hrun hacc (by simp [exReady, exGWorld]) (by simp [exReady, exGWorld])]
    show (1 : ℝ) / 5 ≤ 2 - (exReady []).lastMap
    unfold exReady
    norm_num

/-- non-vacuity of `C122_never_stops_partial`: a map, a goal, two planning cycles and a command -/
example : ∃ log st, Run 1 exStart log st ∧
    List.Forall₂ SameCallback (log.map Entry.ev) [.map 1 1 (some (exTree [])) 1, .click 2 1, .plan ⟨0, 0, none⟩ [], .plan ⟨0, 0, none⟩ [exGoal], .command] := by
  refine C122_never_stops_partial 1 exStart exStart_accepted (by simp [exStart, exGWorld]) (by unfold exStart exGWorld; norm_num)
    (by unfold exStart exGConf; norm_num) _ ?_
  intro e he
  simp only [List.mem_cons, List.not_mem_nil, or_false] at he
  rcases he with rfl | rfl | rfl | rfl | rfl
  · exact ⟨by simp, by unfold exStart exGWorld; norm_num⟩
  · trivial
  · trivial
  · trivial
  · trivial

/-- non-vacuity of `C122_search_inside_table_partial`: the default maximum risk, maximum altitude, flow and cell size are inside the bounds -/
example (J J' : List Node → Node → ℝ) (C : GConf) (hC : AcceptedCfg C 1 (1 / 200) 2000) (h8 : C.cost.maxCellRisk = 1 / 5) (h10 : C.cost.maxAltitude = 10) :
    findSmoothPath (riskProblem 1 C.radius (seenRisk 1 ⟨{ exGWorld none with flow := 1 }, fun _ => none⟩) C.cost (fun _ => false) .speed ⟨exGoal, 1, false⟩
      (fun hist u => (heuristicWith 1 { exGWorld none with flow := 1 } (seenRisk 1 ⟨{ exGWorld none with flow := 1 }, fun _ => none⟩) C.cost (exHeur true) exGoal hist u).getD (J hist u))
      (fun _ => 0)) ⟨⟨0, 0, 3⟩, ⟨0, 0, 3⟩⟩ 10 20 =
    findSmoothPath (riskProblem 1 C.radius (seenRisk 1 ⟨{ exGWorld none with flow := 1 }, fun _ => none⟩) C.cost (fun _ => false) .speed ⟨exGoal, 1, false⟩
      (fun hist u => (heuristicWith 1 { exGWorld none with flow := 1 } (seenRisk 1 ⟨{ exGWorld none with flow := 1 }, fun _ => none⟩) C.cost (exHeur true) exGoal hist u).getD (J' hist u))
      (fun _ => 0)) ⟨⟨0, 0, 3⟩, ⟨0, 0, 3⟩⟩ 10 20 := by
  refine C122_search_inside_table_partial 1 (by norm_num)
    { exStart with conf := C, mem := ⟨{ exGWorld none with flow := 1 }, fun _ => none⟩ } ⟨hC, (exGWorld_good none).prob, rfl⟩ (log := []) Run.start (by simp) 1
    (le_refl _) (by simp) (by simp) ?_ ?_ ?_ ?_ ⟨exGoal, 1, false⟩ (by decide) (exHeur true) _ _ _ J J' _ _ _
  · unfold exGWorld; norm_num
  · unfold exGWorld; norm_num
  · show 2 * (C.cost.maxAltitude : ℝ) ≤ 51 * 1
    rw [h10]; norm_num
  · show 8 * C.cost.maxCellRisk ≤ (1 + 1) * 1
    rw [h8]; norm_num

/-- non-vacuity of `C122_outside_table_violated`: with a maximum altitude of 50 m, in a reachable state, a vehicle at an altitude index of 24 with nothing around it -/
example : ∃ log st, Run 1 exStart log st ∧ (∀ e ∈ log, AcceptedEvent e.ev) ∧ ∀ heur pick, ∃ s,
    runLoop (riskProblem 1 5 (seenRisk 1 st.mem) st.conf.cost (fun _ => false) .node ⟨exGoal, 1, false⟩ heur pick) 1 2
      (SearchSt.init (riskProblem 1 5 (seenRisk 1 st.mem) st.conf.cost (fun _ => false) .node ⟨exGoal, 1, false⟩ heur pick) ⟨⟨0, 0, 24⟩, ⟨0, 0, 24⟩⟩) = some (none, s) ∧
    ∃ w ∈ s.pushed, w.cell = ⟨0, 0, 25⟩ ∧ ∀ hist, heuristicWith 1 st.mem.world (seenRisk 1 st.mem) st.conf.cost (exHeur true) exGoal hist w = none := by
  obtain ⟨log, hrun, hacc⟩ := exTuned 50 (by norm_num) (103 / 100) (by norm_num)
  refine ⟨log, _, hrun, hacc, fun heur pick => ?_⟩
  refine C122_outside_table_violated 1 5 _ _ _ (exHeur true) rfl _ .node ⟨exGoal, 1, false⟩ heur pick _ ⟨⟨0, 0, 25⟩, ⟨0, 0, 24⟩⟩ ?_ ?_ ?_ (by decide) (Or.inl (Or.inr (by decide)))
  · unfold GoalCell.withinPlan Cell.manhattan Cell.toPoint exGoal pos
    norm_num
  · unfold nodeNeighbors Cell.neighbors
    simp
  · have hρ : ∀ c : Cell, 1 ≤ c.z → seenRisk 1 (exReady []).mem c = some 0 := by
      intro c hc
      unfold seenRisk cachedRisk exReady
      dsimp only
      rw [exRisk_eq, exFree [] c hc (by simp)]
      rfl
    refine ⟨by unfold pos; norm_num, ?_⟩
    have hcells : ∀ c ∈ (⟨⟨0, 0, 25⟩, ⟨0, 0, 24⟩⟩ : Node).cells (1 : ℝ), 1 ≤ c.z := by
      intro c hc
      obtain ⟨i, h1, h2, dx, dy, _, _, _, _, hb⟩ := ((C83_examined 1 one_pos _ c).1).mp hc
      have hi : (0 : ℝ) ≤ (i : ℝ) / ((⟨⟨0, 0, 25⟩, ⟨0, 0, 24⟩⟩ : Node).steps : ℝ) := by positivity
      have hz := hb.2
      unfold pos at hz
      dsimp only at hz
      have : (1 : ℝ) < c.z + 1 := by nlinarith
      have : (0 : ℝ) < (c.z : ℝ) := by linarith
      have : 0 < c.z := by exact_mod_cast this
      omega
    refine ⟨0, ?_, by unfold exGConf; norm_num⟩
    unfold moveRisk
    rw [mapM_sum (g := fun _ => 0) _ (fun c hc => hρ c (hcells c hc))]
    dsimp only
    rw [if_neg (cells_ne_nil 1 _ (by decide))]
    simp

/-- non-vacuity of `C122_hover_hangs_violated`: with a minimum overestimation of 1 a reachable planning cycle never ends -/
example : ∃ log st, Run 1 exStart log st ∧ (∀ e ∈ log, AcceptedEvent e.ev) ∧ ∀ asked, ¬ ∃ f, Genuine 1 st (.plan f asked) := by
  obtain ⟨log, hrun, hacc⟩ := exTuned 10 (by norm_num) 1 (by norm_num)
  refine ⟨log, _, hrun, hacc, fun asked => ?_⟩
  have hcy : (cycleStart 1 (exReady []).gp).goal = ⟨exGoal, 3, false⟩ := by
    unfold cycleStart
    rw [if_neg]
    · rfl
    · rintro (h | h)
      · unfold GoalCell.withinPosition Cell.manhattan exReady exGoal exHere pos at h
        norm_num at h
      · exact absurd h (by simp [exReady])
  refine C122_hover_hangs_violated 1 _ asked (ex_searches [] (by simp) (by simp)) (le_refl _) ?_ ?_ ?_
  · unfold exGConf; norm_num
  · show (0 : ℤ) < 2000
    norm_num
  · show (cycleStart 1 (exReady []).gp).goal.withinPlan 1 (startNode 1 exHere ⟨4, 0, 0⟩ (1 / 2)).cell
    rw [hcy, exStartNode]
    unfold GoalCell.withinPlan Cell.manhattan Cell.toPoint exGoal exHit pos
    norm_num

end

end Global
end Avoidance
