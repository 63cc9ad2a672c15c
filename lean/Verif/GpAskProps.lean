import Verif.GpAsk
import Verif.GpRunMore
import Verif.GpMovesProps
import Verif.GpHeurProps

/-!
# C104: asking about a point
-/

namespace Avoidance
namespace Global

set_option linter.unusedSectionVars false

noncomputable section

/-! ## The memory of answers -/

/-- one question: the answer and everything about the memory afterwards -/
theorem ask_one {sc : ℝ} {m m' : CacheSt ℝ} {c : Cell} {r : ℝ} (h : cachedRisk sc m c = some (r, m')) :
    m'.world = m.world ∧ seenRisk sc m' = seenRisk sc m ∧ seenRisk sc m c = some r ∧ m'.cache c = some r ∧ ∀ d, d ≠ c → m'.cache d = m.cache d := by
  have hs : seenRisk sc m c = some r := by unfold seenRisk; rw [h]; rfl
  unfold cachedRisk at h
  cases hc : m.cache c with
  | some x =>
      rw [hc] at h
      dsimp only at h
      obtain ⟨rfl, rfl⟩ := Prod.mk.inj (Option.some.inj h)
      exact ⟨rfl, rfl, hs, hc, fun _ _ => rfl⟩
  | none =>
      rw [hc] at h
      dsimp only at h
      rw [Option.map_eq_some_iff] at h
      obtain ⟨x, hx, h⟩ := h
      obtain ⟨rfl, rfl⟩ := Prod.mk.inj h
      refine ⟨rfl, ?_, hs, by simp, fun d hd => by simp [hd]⟩
      funext d
      unfold seenRisk cachedRisk
      dsimp only
      by_cases hd : d = c
      · subst hd
        rw [if_pos rfl, hc, hx]
        rfl
      · rw [if_neg hd]
        cases m.cache d with
        | some y => rfl
        | none =>
            dsimp only
            cases cellRisk sc m.world d <;> rfl

theorem ask_defined {sc : ℝ} {m : CacheSt ℝ} {c : Cell} {r : ℝ} (h : seenRisk sc m c = some r) : ∃ m', cachedRisk sc m c = some (r, m') := by
  unfold seenRisk at h
  rw [Option.map_eq_some_iff] at h
  obtain ⟨⟨a, m'⟩, h1, h2⟩ := h
  obtain rfl : a = r := h2
  exact ⟨m', h1⟩

theorem ask_undefined {sc : ℝ} {m : CacheSt ℝ} {c : Cell} (h : seenRisk sc m c = none) : cachedRisk sc m c = none := by
  unfold seenRisk at h
  rwa [Option.map_eq_none_iff] at h

/-- two memories that answer alike -/
def Alike (sc : ℝ) (m m' : CacheSt ℝ) : Prop := m'.world = m.world ∧ seenRisk sc m' = seenRisk sc m

/-- the same question to two memories that answer alike -/
theorem alike_ask {sc : ℝ} {m m' : CacheSt ℝ} (h : Alike sc m m') (c : Cell) :
    (cachedRisk sc m c = none ∧ cachedRisk sc m' c = none) ∨
    ∃ r n n', cachedRisk sc m c = some (r, n) ∧ cachedRisk sc m' c = some (r, n') ∧ Alike sc n n' := by
  cases hc : seenRisk sc m c with
  | none => exact Or.inl ⟨ask_undefined hc, ask_undefined (by rw [h.2]; exact hc)⟩
  | some r =>
      obtain ⟨n, hn⟩ := ask_defined hc
      obtain ⟨n', hn'⟩ := ask_defined (m := m') (c := c) (r := r) (by rw [h.2]; exact hc)
      obtain ⟨a1, a2, _⟩ := ask_one hn
      obtain ⟨b1, b2, _⟩ := ask_one hn'
      exact Or.inr ⟨r, n, n', hn, hn', by rw [a1, b1]; exact h.1, by rw [a2, b2]; exact h.2⟩

theorem alike_askAll {sc : ℝ} : ∀ (l : List Cell) {m m' : CacheSt ℝ}, Alike sc m m' →
    (askAll sc m l = none ∧ askAll sc m' l = none) ∨ ∃ n n', askAll sc m l = some n ∧ askAll sc m' l = some n' ∧ Alike sc n n'
  | [], m, m', h => Or.inr ⟨m, m', rfl, rfl, h⟩
  | c :: l, m, m', h => by
      unfold askAll
      rcases alike_ask h c with ⟨h1, h2⟩ | ⟨r, n, n', h1, h2, h3⟩
      · rw [h1, h2]; exact Or.inl ⟨rfl, rfl⟩
      · rw [h1, h2]; exact alike_askAll l h3

/-! ## What is told -/

/-- **Specification**: the estimate of the cost from the cell `u` to the goal that is told: the (over-estimated) horizontal distance, the cost of the difference of
altitude, of the turn into the horizontal, and - if switched on - of the risk on the way and of the visits in the last search. -/
def ToldEstimate (sc : ℝ) (m : CacheSt ℝ) (C : CostCfg) (H : HeurCfg) (count : ℕ) (u goal : Cell) (h : ℝ) : Prop :=
  ∃ r, (H.useRisk = false → r = 0) ∧ (u = goal → r = 0) ∧
    (H.useRisk = true → u ≠ goal → ∃ a b g, accumulatedAt u.z = some a ∧ accumulatedAt goal.z = some b ∧ seenRisk sc m goal = some g ∧
      r = ((u.diag2D sc goal - 1) * altPrior sc u + |a - b|) * ((1 + 6 * m.world.flow) * m.world.explore * C.riskFactor) + g * C.riskFactor) ∧
    h = H.overestimate * u.diag2D sc goal + (if u.z < goal.z then H.up else H.down) * |((goal.z - u.z : ℤ) : ℝ)| +
      (if u.x = goal.x ∧ u.y = goal.y then 0 else H.smooth * H.vertToHor) + r + (if H.useSpeedup = true then (count : ℝ) else 0)

/-- the heuristic and the memory after it -/
theorem askHeuristic_spec {sc : ℝ} {m m' : CacheSt ℝ} {C : CostCfg} {H : HeurCfg} {count : ℕ} {u goal : Cell} {h : ℝ}
    (hh : askHeuristic sc m C H count u goal = some (h, m')) :
    ToldEstimate sc m C H count u goal h ∧ m'.world = m.world ∧ seenRisk sc m' = seenRisk sc m ∧
    (H.useRisk = true → u ≠ goal → m'.cache goal = seenRisk sc m goal) ∧
    (∀ d, d ≠ goal ∨ H.useRisk = false ∨ u = goal → m'.cache d = m.cache d) := by
  unfold askHeuristic at hh
  rw [Option.map_eq_some_iff] at hh
  obtain ⟨⟨r, n⟩, h1, h2⟩ := hh
  obtain ⟨h3, rfl⟩ := Prod.mk.inj h2
  dsimp only at h3
  have key : h = H.overestimate * u.diag2D sc goal + (if u.z < goal.z then H.up else H.down) * |((goal.z - u.z : ℤ) : ℝ)| +
      (if u.x = goal.x ∧ u.y = goal.y then 0 else H.smooth * H.vertToHor) + r + (if H.useSpeedup = true then (count : ℝ) else 0) := by
    rw [← h3]
    unfold altitudeHeuristic smoothnessHeuristic
    have e : (0 < goal.z - u.z) ↔ u.z < goal.z := by omega
    dsimp only
    simp only [and_self, if_true, e]
    congr 3
    split <;> rfl
  cases hr : H.useRisk with
  | false =>
      rw [hr] at h1
      rw [if_neg (by simp)] at h1
      obtain ⟨rfl, rfl⟩ := Prod.mk.inj (Option.some.inj h1)
      exact ⟨⟨0, fun _ => rfl, fun _ => rfl, fun x => absurd x (by rw [hr]; simp), key⟩, rfl, rfl, fun x => absurd x (by simp), fun _ _ => rfl⟩
  | true =>
      rw [hr, if_pos rfl] at h1
      unfold askRiskHeuristic at h1
      by_cases hu : u = goal
      · rw [if_pos hu] at h1
        obtain ⟨rfl, rfl⟩ := Prod.mk.inj (Option.some.inj h1)
        exact ⟨⟨0, fun _ => rfl, fun _ => rfl, fun _ x => absurd hu x, key⟩, rfl, rfl, fun _ x => absurd hu x, fun _ _ => rfl⟩
      · rw [if_neg hu] at h1
        dsimp only at h1
        cases ha : accumulatedAt u.z with
        | none => rw [ha] at h1; simp at h1
        | some a =>
            cases hb : accumulatedAt goal.z with
            | none => rw [ha, hb] at h1; simp at h1
            | some b =>
                rw [ha, hb] at h1
                dsimp only at h1
                rw [Option.map_eq_some_iff] at h1
                obtain ⟨⟨g, n'⟩, h4, h5⟩ := h1
                obtain ⟨h6, rfl⟩ := Prod.mk.inj h5
                dsimp only at h6
                obtain ⟨w1, w2, w3, w4, w5⟩ := ask_one h4
                refine ⟨⟨r, fun x => absurd x (by rw [hr]; simp), fun x => absurd x hu, fun _ _ => ⟨a, b, g, ha, hb, w3, ?_⟩, key⟩, w1, w2, fun _ _ => by rw [w4, w3], ?_⟩
                · rw [← h6]; ring
                · rintro d (hd | hd | hd)
                  · exact w5 d hd
                  · exact absurd hd (by simp)
                  · exact absurd hd hu

/-- **Specification**: the last line that is told about the point: the leaf of the map at the point with its probability and posterior, and the posterior scaled with
the penalty for unexplored space unless an obstacle point was seen in the cell; or that there is no leaf. -/
def ToldLeaf (sc : ℝ) (W : RiskWorld ℝ) (full : V3 ℝ → Option ℝ) (p : V3 ℝ) (l : LeafLine) : Prop :=
  (∀ lo, full p = some lo →
    l = .known (W.prob lo) (posterior (altPrior sc (cellOf sc p)) (W.prob lo)) (W.occupied (cellOf sc p))
      ((if W.occupied (cellOf sc p) = true then 1 else W.explore) * posterior (altPrior sc (cellOf sc p)) (W.prob lo))) ∧
  (full p = none → l = .notInTree (W.explore * altPrior sc (cellOf sc p)))

theorem leafLine_spec {sc : ℝ} {W : RiskWorld ℝ} {full : V3 ℝ → Option ℝ} {p : V3 ℝ} :
    (∀ l, leafLine sc W full p = some l → W.tree ≠ none ∧ ToldLeaf sc W full p l) ∧ (leafLine sc W full p = none ↔ W.tree = none) := by
  unfold leafLine ToldLeaf
  cases ht : W.tree with
  | none => simp
  | some t =>
      dsimp only
      cases hf : full p with
      | none => simp
      | some lo =>
          dsimp only
          cases ho : W.occupied (cellOf sc p) <;> simp

/-- **C104**: what is told about a point, in every state: the risk is the one the planner itself is answered for the cell of the point, the cost is that risk times the
risk factor, then come the risk of the cell alone and of the cells of the six points one metre away, the estimate of the cost to the current goal, and the leaf of the map. -/
theorem C104_told (sc : ℝ) (st st' : GlobalSt) (H : HeurCfg) (count : ℕ) (full : V3 ℝ → Option ℝ) (clicked clicked' : List (V3 ℝ)) (p : V3 ℝ) (i : PointInfo)
    (h : clickPoint sc st H count full clicked p = some (i, st', clicked')) :
    seenRisk sc st.mem (cellOf sc p) = some i.risk ∧ i.riskCost = st.conf.cost.riskFactor * i.risk ∧
    i.single = singleRisk sc st.mem.world (cellOf sc p) ∧
    i.neighbors = ([⟨p.x, p.y + 1, p.z⟩, ⟨p.x, p.y, p.z + 1⟩, ⟨p.x - 1, p.y, p.z⟩, ⟨p.x + 1, p.y, p.z⟩, ⟨p.x, p.y - 1, p.z⟩, ⟨p.x, p.y, p.z - 1⟩] : List (V3 ℝ)).map
      (fun q => singleRisk sc st.mem.world (cellOf sc q)) ∧
    ToldEstimate sc st.mem st.conf.cost H count (cellOf sc p) st.gp.goal.cell i.heuristic ∧
    ToldLeaf sc st.mem.world full p i.leaf ∧
    clicked' = clicked ++ [⟨p.x, p.y, st.gp.pos.z⟩] := by
  unfold clickPoint at h
  rw [Option.map_eq_some_iff] at h
  obtain ⟨⟨i0, m'⟩, h1, h2⟩ := h
  obtain ⟨rfl, h3⟩ := Prod.mk.inj h2
  obtain ⟨_, rfl⟩ := Prod.mk.inj h3
  dsimp only
  unfold printPointStats at h1
  cases hr : cachedRisk sc st.mem (cellOf sc p) with
  | none => rw [hr] at h1; simp at h1
  | some r =>
      obtain ⟨r, m1⟩ := r
      rw [hr] at h1
      dsimp only at h1
      cases hh : askHeuristic sc m1 st.conf.cost H count (cellOf sc p) st.gp.goal.cell with
      | none => rw [hh] at h1; simp at h1
      | some x =>
          obtain ⟨x, m2⟩ := x
          rw [hh] at h1
          dsimp only at h1
          rw [Option.map_eq_some_iff] at h1
          obtain ⟨l, hl, h4⟩ := h1
          obtain ⟨rfl, rfl⟩ := Prod.mk.inj h4
          obtain ⟨a1, a2, a3, a4, a5⟩ := ask_one hr
          obtain ⟨b1, b2, b3, _⟩ := askHeuristic_spec hh
          have c1 := (leafLine_spec.1 l hl).2
          rw [b2, a1] at c1
          refine ⟨a3, rfl, by dsimp only; rw [a1], by simp [a1], ?_, c1, rfl⟩
          obtain ⟨y, y1, y2, y3, y4⟩ := b1
          rw [a2, a1] at y3
          exact ⟨y, y1, y2, y3, y4⟩

/-- **C104**: exactly when a point can be asked about: a map has been received, the risk of its cell is defined, and - with the risk heuristic on, unless the point is in
the cell of the goal - both the point and the goal are at an altitude index from 0 to 24 and the risk of the goal is defined. Otherwise the node reads outside its
memory. -/
theorem C104_defined (sc : ℝ) (st : GlobalSt) (H : HeurCfg) (count : ℕ) (full : V3 ℝ → Option ℝ) (clicked : List (V3 ℝ)) (p : V3 ℝ) :
    (∃ r, clickPoint sc st H count full clicked p = some r) ↔
      st.mem.world.tree ≠ none ∧ (∃ r, seenRisk sc st.mem (cellOf sc p) = some r) ∧
      (H.useRisk = true → cellOf sc p ≠ st.gp.goal.cell →
        (0 ≤ (cellOf sc p).z ∧ (cellOf sc p).z < 25) ∧ (0 ≤ st.gp.goal.cell.z ∧ st.gp.goal.cell.z < 25) ∧ ∃ r, seenRisk sc st.mem st.gp.goal.cell = some r) := by
  have hacc : ∀ z : ℤ, (∃ a, accumulatedAt z = some a) ↔ 0 ≤ z ∧ z < 25 := by
    intro z
    have := C60_risk_heuristic_index_violated z
    cases ha : accumulatedAt z with
    | none => have h1 := this.1 ha; constructor
              · rintro ⟨a, h⟩; exact absurd h (by simp)
              · rintro ⟨h2, h3⟩; omega
    | some a => constructor
                · intro _
                  by_contra hc
                  have : accumulatedAt z = none := this.2 (by omega)
                  rw [ha] at this; exact absurd this (by simp)
                · intro _; exact ⟨a, rfl⟩
  unfold clickPoint printPointStats
  cases hr : seenRisk sc st.mem (cellOf sc p) with
  | none =>
      rw [ask_undefined hr]
      constructor
      · rintro ⟨r, h⟩; exact absurd h (by simp)
      · rintro ⟨_, ⟨r, h⟩, _⟩; exact absurd h (by simp)
  | some r =>
      obtain ⟨m1, h1⟩ := ask_defined hr
      obtain ⟨a1, a2, _, _, _⟩ := ask_one h1
      rw [h1]
      dsimp only
      have hheur : (∃ x, askHeuristic sc m1 st.conf.cost H count (cellOf sc p) st.gp.goal.cell = some x) ↔
          (H.useRisk = true → cellOf sc p ≠ st.gp.goal.cell → (0 ≤ (cellOf sc p).z ∧ (cellOf sc p).z < 25) ∧
            (0 ≤ st.gp.goal.cell.z ∧ st.gp.goal.cell.z < 25) ∧ ∃ r, seenRisk sc st.mem st.gp.goal.cell = some r) := by
        unfold askHeuristic
        cases hu : H.useRisk with
        | false => simp
        | true =>
            rw [if_pos rfl]
            unfold askRiskHeuristic
            by_cases he : cellOf sc p = st.gp.goal.cell
            · rw [if_pos he]; simp [he]
            · rw [if_neg he]
              dsimp only
              rw [← hacc, ← hacc]
              cases ha : accumulatedAt (cellOf sc p).z with
              | none => simp [he]
              | some a =>
                  cases hb : accumulatedAt st.gp.goal.cell.z with
                  | none => simp [he]
                  | some b =>
                      dsimp only
                      cases hg : seenRisk sc st.mem st.gp.goal.cell with
                      | none => rw [ask_undefined (by rw [a2]; exact hg)]; simp [he]
                      | some g =>
                          obtain ⟨m2, h2⟩ := ask_defined (m := m1) (c := st.gp.goal.cell) (r := g) (by rw [a2]; exact hg)
                          rw [h2]; simp
      cases hh : askHeuristic sc m1 st.conf.cost H count (cellOf sc p) st.gp.goal.cell with
      | none =>
          rw [hh] at hheur
          have : ¬ _ := fun x => absurd (hheur.2 x) (by simp)
          constructor
          · rintro ⟨r, h⟩; exact absurd h (by simp)
          · rintro ⟨_, _, h⟩; exact absurd h this
      | some x =>
          obtain ⟨x, m2⟩ := x
          rw [hh] at hheur
          obtain ⟨_, b2, _⟩ := askHeuristic_spec hh
          dsimp only
          cases hl : leafLine sc m2.world full p with
          | none =>
              have := leafLine_spec.2.1 hl
              rw [b2, a1] at this
              simp [this]
          | some l =>
              have := (leafLine_spec.1 l hl).1
              rw [b2, a1] at this
              constructor
              · intro _; exact ⟨this, ⟨r, rfl⟩, hheur.1 ⟨_, rfl⟩⟩
              · intro _; exact ⟨_, rfl⟩

/-- **C104** (violated): asking about a point before the first map crashes the node, wherever the point is. -/
theorem C104_no_map_violated (sc : ℝ) (st : GlobalSt) (H : HeurCfg) (count : ℕ) (full : V3 ℝ → Option ℝ) (clicked : List (V3 ℝ)) (p : V3 ℝ)
    (h : st.mem.world.tree = none) : clickPoint sc st H count full clicked p = none := by
  cases hc : clickPoint sc st H count full clicked p with
  | none => rfl
  | some r => exact absurd h ((C104_defined sc st H count full clicked p).1 ⟨r, hc⟩).1

/-- **C104** (violated): with the risk heuristic on, asking about a point below the ground or at 25 cells or more reads outside the table of altitudes - in every state,
unless the point is in the cell of the goal. -/
theorem C104_altitude_violated (sc : ℝ) (hs : 0 < sc) (st : GlobalSt) (H : HeurCfg) (count : ℕ) (full : V3 ℝ → Option ℝ) (clicked : List (V3 ℝ)) (p : V3 ℝ)
    (hu : H.useRisk = true) (hg : cellOf sc p ≠ st.gp.goal.cell) (hz : p.z < 0 ∨ 25 * sc ≤ p.z) : clickPoint sc st H count full clicked p = none := by
  cases hc : clickPoint sc st H count full clicked p with
  | none => rfl
  | some r =>
      obtain ⟨⟨h1, h2⟩, _⟩ := ((C104_defined sc st H count full clicked p).1 ⟨r, hc⟩).2.2 hu hg
      exfalso
      have e : (cellOf sc p).z = ⌊p.z / sc⌋ := rfl
      rw [e] at h1 h2
      rw [Int.floor_nonneg] at h1
      rcases hz with hz | hz
      · exact absurd h1 (not_le.2 (div_neg_of_neg_of_pos hz hs))
      · rw [Int.floor_lt, div_lt_iff₀ hs] at h2
        push_cast at h2
        linarith

/-! ## What it changes -/

/-- **C104**: asking changes nothing but the memory of answers: the map, the goal, the path, the setpoint and all answers stay what they are; afterwards exactly the
cell of the point and - with the risk heuristic, if it is another one - the cell of the goal are remembered in addition. -/
theorem C104_effect (sc : ℝ) (st st' : GlobalSt) (H : HeurCfg) (count : ℕ) (full : V3 ℝ → Option ℝ) (clicked clicked' : List (V3 ℝ)) (p : V3 ℝ) (i : PointInfo)
    (h : clickPoint sc st H count full clicked p = some (i, st', clicked')) :
    st'.gp = st.gp ∧ st'.fl = st.fl ∧ st'.conf = st.conf ∧ st'.lastMap = st.lastMap ∧ st'.mem.world = st.mem.world ∧
    (∀ c, seenRisk sc st'.mem c = seenRisk sc st.mem c) ∧
    (∀ c, st'.mem.cache c = if c = cellOf sc p ∨ (H.useRisk = true ∧ c = st.gp.goal.cell) then seenRisk sc st.mem c else st.mem.cache c) := by
  unfold clickPoint at h
  rw [Option.map_eq_some_iff] at h
  obtain ⟨⟨i0, m'⟩, h1, h2⟩ := h
  obtain ⟨rfl, h3⟩ := Prod.mk.inj h2
  obtain ⟨rfl, rfl⟩ := Prod.mk.inj h3
  dsimp only
  refine ⟨rfl, rfl, rfl, rfl, ?_⟩
  unfold printPointStats at h1
  cases hr : cachedRisk sc st.mem (cellOf sc p) with
  | none => rw [hr] at h1; simp at h1
  | some r =>
      obtain ⟨r, m1⟩ := r
      rw [hr] at h1
      dsimp only at h1
      cases hh : askHeuristic sc m1 st.conf.cost H count (cellOf sc p) st.gp.goal.cell with
      | none => rw [hh] at h1; simp at h1
      | some x =>
          obtain ⟨x, m2⟩ := x
          rw [hh] at h1
          dsimp only at h1
          rw [Option.map_eq_some_iff] at h1
          obtain ⟨l, hl, h4⟩ := h1
          obtain ⟨rfl, rfl⟩ := Prod.mk.inj h4
          obtain ⟨a1, a2, a3, a4, a5⟩ := ask_one hr
          obtain ⟨_, b2, b3, b4, b5⟩ := askHeuristic_spec hh
          refine ⟨b2.trans a1, fun c => by rw [b3, a2], fun c => ?_⟩
          by_cases hc : c = cellOf sc p
          · rw [if_pos (Or.inl hc), hc, a3]
            by_cases hg : cellOf sc p = st.gp.goal.cell
            · rw [b5 _ (Or.inr (Or.inr hg)), a4]
            · rw [b5 _ (Or.inl hg), a4]
          · by_cases hg : H.useRisk = true ∧ c = st.gp.goal.cell
            · rw [if_pos (Or.inr hg), hg.2, b4 hg.1 (fun x => hc (by rw [hg.2, x])), a2]
            · rw [if_neg (by rintro (x | x); exacts [hc x, hg x])]
              by_cases hd : c = st.gp.goal.cell
              · have : H.useRisk = false := by
                  cases hb : H.useRisk with
                  | false => rfl
                  | true => exact absurd ⟨hb, hd⟩ hg
                rw [b5 c (Or.inr (Or.inl this)), a5 c hc]
              · rw [b5 c (Or.inl hd), a5 c hc]

/-- Several callbacks of the node in a row, with what is published (`gStep`). `none`: undefined. -/
def gRun (sc : ℝ) : GlobalSt → List GEvent → Option (GlobalSt × List (Option (Option (GPose ℝ ℝ))))
  | st, [] => some (st, [])
  | st, e :: es => match gStep sc st e with
    | none => none
    | some r => (gRun sc r.1 es).map fun q => (q.1, r.2 :: q.2)

/-- neither an obstacle point nor a new parameter -/
def Quiet : GEvent → Prop
  | .obstacles _ => False
  | .reconfigure .. => False
  | _ => True

/-- states that differ in the memory of answers only, and answer alike -/
def SameNode (sc : ℝ) (st st' : GlobalSt) : Prop :=
  st'.gp = st.gp ∧ st'.fl = st.fl ∧ st'.conf = st.conf ∧ st'.lastMap = st.lastMap ∧ Alike sc st.mem st'.mem

theorem same_step {sc : ℝ} {st st' : GlobalSt} (h : SameNode sc st st') {ev : GEvent} (hq : Quiet ev) :
    (gStep sc st ev = none ∧ gStep sc st' ev = none) ∨
    ∃ a b out, gStep sc st ev = some (a, out) ∧ gStep sc st' ev = some (b, out) ∧ SameNode sc a b := by
  obtain ⟨gp, fl, mem, conf, lm⟩ := st
  obtain ⟨gp', fl', mem', conf', lm'⟩ := st'
  obtain ⟨h1, h2, h3, h4, h5⟩ := h
  dsimp only at h1 h2 h3 h4 h5
  subst h1 h2 h3 h4
  cases ev with
  | position p => exact Or.inr ⟨_, _, _, rfl, rfl, rfl, rfl, rfl, rfl, h5⟩
  | velocity v => exact Or.inr ⟨_, _, _, rfl, rfl, rfl, rfl, rfl, rfl, h5⟩
  | map t1 t2 t res =>
      unfold gStep
      dsimp only
      by_cases hm : (mapCallback lm' t1 t2).2 = true
      · rw [if_pos hm, if_pos hm]
        cases t with
        | none => exact Or.inl ⟨rfl, rfl⟩
        | some t => exact Or.inr ⟨_, _, _, rfl, rfl, rfl, rfl, rfl, rfl, by dsimp only; rw [h5.1], by dsimp only; rw [h5.1]⟩
      · rw [if_neg hm, if_neg hm]
        exact Or.inr ⟨_, _, _, rfl, rfl, rfl, rfl, rfl, rfl, h5⟩
  | obstacles cs => exact absurd hq id
  | reconfigure => exact absurd hq id
  | fcu v p => exact Or.inr ⟨_, _, _, rfl, rfl, rfl, rfl, rfl, rfl, h5⟩
  | click x y => exact Or.inr ⟨_, _, _, rfl, rfl, rfl, rfl, rfl, rfl, h5⟩
  | plan f asked =>
      unfold gStep planTick
      dsimp only
      rcases alike_askAll asked h5 with ⟨e1, e2⟩ | ⟨n, n', e1, e2, e3⟩
      · rw [e1, e2]; exact Or.inl ⟨rfl, rfl⟩
      · rw [e1, e2]
        refine Or.inr ⟨_, _, _, rfl, rfl, ?_, ?_, rfl, rfl, e3⟩
        · dsimp only
          unfold planEnv
          dsimp only
          rw [h5.1, h5.2]
        · dsimp only
          unfold planEnv simplifyCost
          dsimp only
          rw [h5.1, h5.2]
  | command =>
      unfold gStep commandTick
      dsimp only
      by_cases hs : conf'.speed.speedupHeuristics = true
      · rw [if_pos hs, if_pos hs]
        rcases alike_ask h5 (cellOf sc fl'.here.position) with ⟨e1, e2⟩ | ⟨r, n, n', e1, e2, e3⟩
        · rw [e1, e2]; exact Or.inl ⟨rfl, rfl⟩
        · rw [e1, e2]
          dsimp only
          cases commandedSpeed conf'.speed r with
          | none => exact Or.inl ⟨rfl, rfl⟩
          | some v => exact Or.inr ⟨_, _, _, rfl, rfl, rfl, rfl, rfl, rfl, e3⟩
      · rw [if_neg hs, if_neg hs]
        dsimp only
        cases commandedSpeed conf'.speed 0 with
        | none => exact Or.inl ⟨rfl, rfl⟩
        | some v => exact Or.inr ⟨_, _, _, rfl, rfl, rfl, rfl, rfl, rfl, h5⟩

theorem same_run {sc : ℝ} : ∀ (es : List GEvent) {st st' : GlobalSt}, SameNode sc st st' → (∀ e ∈ es, Quiet e) →
    (gRun sc st es = none ∧ gRun sc st' es = none) ∨
    ∃ a b out, gRun sc st es = some (a, out) ∧ gRun sc st' es = some (b, out) ∧ SameNode sc a b
  | [], st, st', h, _ => Or.inr ⟨st, st', [], rfl, rfl, h⟩
  | e :: es, st, st', h, hq => by
      unfold gRun
      rcases same_step h (hq e (by simp)) with ⟨h1, h2⟩ | ⟨a, b, out, h1, h2, h3⟩
      · rw [h1, h2]; exact Or.inl ⟨rfl, rfl⟩
      · rw [h1, h2]
        dsimp only
        rcases same_run es h3 (fun x hx => hq x (List.mem_cons_of_mem _ hx)) with ⟨h4, h5⟩ | ⟨c, d, o, h4, h5, h6⟩
        · rw [h4, h5]; exact Or.inl ⟨rfl, rfl⟩
        · rw [h4, h5]; exact Or.inr ⟨c, d, out :: o, rfl, rfl, h6⟩

theorem gRun_append (sc : ℝ) : ∀ (xs ys : List GEvent) (st : GlobalSt),
    gRun sc st (xs ++ ys) = (gRun sc st xs).bind fun a => (gRun sc a.1 ys).map fun b => (b.1, a.2 ++ b.2)
  | [], ys, st => by
      simp [gRun]
  | e :: xs, ys, st => by
      rw [List.cons_append]
      have e1 : ∀ l, gRun sc st (e :: l) = match gStep sc st e with
        | none => none
        | some r => (gRun sc r.1 l).map fun q => (q.1, r.2 :: q.2) := fun l => by rw [gRun]
      rw [e1, e1]
      cases hs : gStep sc st e with
      | none => rfl
      | some r =>
          dsimp only
          rw [gRun_append sc xs ys]
          cases gRun sc r.1 xs with
          | none => rfl
          | some a =>
              dsimp only [Option.bind_some, Option.map_some]
              cases gRun sc a.1 ys with
              | none => rfl
              | some b => rfl

/-- **C104**: asking does no harm as long as neither an obstacle point nor a parameter arrives before the next map: the same callbacks that would have come without it
publish the same setpoints and leave the same goal, the same path and the same answers. -/
theorem C104_harmless_partial (sc : ℝ) (st st' : GlobalSt) (H : HeurCfg) (count : ℕ) (full : V3 ℝ → Option ℝ) (clicked clicked' : List (V3 ℝ)) (p : V3 ℝ) (i : PointInfo)
    (h : clickPoint sc st H count full clicked p = some (i, st', clicked')) (es : List GEvent)
    (hes : ∀ e ∈ es, (∀ cs, e ≠ .obstacles cs) ∧ ∀ C f x n, e ≠ .reconfigure C f x n) :
    (gRun sc st es = none ∧ gRun sc st' es = none) ∨
    ∃ a b out, gRun sc st es = some (a, out) ∧ gRun sc st' es = some (b, out) ∧
      b.gp = a.gp ∧ b.fl = a.fl ∧ b.conf = a.conf ∧ b.lastMap = a.lastMap ∧ b.mem.world = a.mem.world ∧ ∀ c, seenRisk sc b.mem c = seenRisk sc a.mem c := by
  obtain ⟨h1, h2, h3, h4, h5, h6, _⟩ := C104_effect sc st st' H count full clicked clicked' p i h
  have hs : SameNode sc st st' := ⟨h1, h2, h3, h4, h5, funext h6⟩
  have hq : ∀ e ∈ es, Quiet e := by
    intro e he
    have := hes e he
    cases e with
    | obstacles cs => exact absurd rfl (this.1 cs)
    | reconfigure C f x n => exact absurd rfl (this.2 C f x n)
    | _ => trivial
  rcases same_run es hs hq with h7 | ⟨a, b, out, e1, e2, e3, e4, e5, e6, e7⟩
  · exact Or.inl h7
  · exact Or.inr ⟨a, b, out, e1, e2, e3, e4, e5, e6, e7.1, fun c => congrFun e7.2 c⟩

/-- **C104**: and once a map has been taken the question is forgotten: from then on every callback - obstacle points and parameters as well - has the same effect
as if the question had never been asked. -/
theorem C104_forgotten_partial (sc : ℝ) (st st' : GlobalSt) (H : HeurCfg) (count : ℕ) (full : V3 ℝ → Option ℝ) (clicked clicked' : List (V3 ℝ)) (p : V3 ℝ) (i : PointInfo)
    (h : clickPoint sc st H count full clicked p = some (i, st', clicked')) (es after : List GEvent)
    (hes : ∀ e ∈ es, (∀ cs, e ≠ .obstacles cs) ∧ ∀ C f x n, e ≠ .reconfigure C f x n) (t1 t2 : ℝ) (t : Cell → Option ℝ) (res : ℝ)
    (htaken : ∀ a out, gRun sc st es = some (a, out) → 1 / 5 ≤ t1 - a.lastMap) :
    gRun sc st' (es ++ .map t1 t2 (some t) res :: after) = gRun sc st (es ++ .map t1 t2 (some t) res :: after) := by
  rw [gRun_append, gRun_append]
  rcases C104_harmless_partial sc st st' H count full clicked clicked' p i h es hes with ⟨h1, h2⟩ | ⟨a, b, out, h1, h2, h3, h4, h5, h6, h7, _⟩
  · rw [h1, h2]
  · rw [h1, h2]
    have ht := htaken a out h1
    dsimp only [Option.bind_some]
    have e : gStep sc b (.map t1 t2 (some t) res) = gStep sc a (.map t1 t2 (some t) res) := by
      obtain ⟨gp, fl, mem, conf, lm⟩ := a
      obtain ⟨gp', fl', mem', conf', lm'⟩ := b
      dsimp only at h3 h4 h5 h6 h7 ht
      subst h3 h4 h5 h6
      unfold gStep
      dsimp only
      have hm : (mapCallback lm' t1 t2).2 = true := (C59_not_starved lm' t1 t2).2 ht
      rw [if_pos hm, if_pos hm]
      unfold cacheStep
      dsimp only
      rw [h7]
    unfold gRun
    rw [e]

/-- **C104** (violated): asking can change what is planned. If a cell was not asked for since the last map, and obstacle points arrive that change its risk, the planner
is answered the new risk; but if somebody asked about a point in that cell before, it goes on being answered the old one until the next map. -/
theorem C104_changes_answers_violated (sc : ℝ) (st st' : GlobalSt) (H : HeurCfg) (count : ℕ) (full : V3 ℝ → Option ℝ) (clicked clicked' : List (V3 ℝ)) (p : V3 ℝ)
    (i : PointInfo) (h : clickPoint sc st H count full clicked p = some (i, st', clicked')) (hc : st.mem.cache (cellOf sc p) = none) (cs : List Cell) :
    seenRisk sc (addObstacles st'.mem cs) (cellOf sc p) = seenRisk sc st.mem (cellOf sc p) ∧
    seenRisk sc (addObstacles st.mem cs) (cellOf sc p) = cellRisk sc (addObstacles st.mem cs).world (cellOf sc p) := by
  obtain ⟨_, _, _, _, _, _, h7⟩ := C104_effect sc st st' H count full clicked clicked' p i h
  have hr := (C104_told sc st st' H count full clicked clicked' p i h).1
  have h8 := h7 (cellOf sc p)
  rw [if_pos (Or.inl rfl), hr] at h8
  rw [hr]
  constructor
  · unfold seenRisk cachedRisk addObstacles
    dsimp only
    rw [h8]
    rfl
  · unfold seenRisk cachedRisk
    have : (addObstacles st.mem cs).cache (cellOf sc p) = none := hc
    rw [this]
    dsimp only
    cases cellRisk sc (addObstacles st.mem cs).world (cellOf sc p) <;> rfl

/-! ## What is misleading -/

/-- **C104** (violated): the value told last is not the risk of the cell: if the map holds the cell for occupied (log-odds above 0) but no obstacle point was seen in it,
the planner uses the posterior, and the value told is the posterior times the penalty. -/
theorem C104_value_violated (sc : ℝ) (st st' : GlobalSt) (H : HeurCfg) (count : ℕ) (full : V3 ℝ → Option ℝ) (clicked clicked' : List (V3 ℝ)) (p : V3 ℝ) (i : PointInfo)
    (h : clickPoint sc st H count full clicked p = some (i, st', clicked')) (t : Cell → Option ℝ) (ht : st.mem.world.tree = some t) (lo : ℝ)
    (hleaf : t (cellOf sc p) = some lo) (hfull : full p = some lo) (hlo : 0 < lo) (hz : 1 ≤ (cellOf sc p).z) (ho : st.mem.world.occupied (cellOf sc p) = false) :
    ∃ prob post, i.leaf = .known prob post false (st.mem.world.explore * i.single) ∧ i.single = post := by
  obtain ⟨_, _, h3, _, _, h6, _⟩ := C104_told sc st st' H count full clicked clicked' p i h
  have h7 := h6.1 lo hfull
  have h8 := (C60_risk_law sc st.mem.world (cellOf sc p) hz t ht).1 lo hleaf (Or.inr hlo)
  rw [← h3] at h8
  have h9 : posterior (altPrior sc (cellOf sc p)) (st.mem.world.prob lo) = i.single := by rw [h8]; rfl
  refine ⟨st.mem.world.prob lo, posterior (altPrior sc (cellOf sc p)) (st.mem.world.prob lo), ?_, h9.symm⟩
  rw [h7, ho, if_neg (by simp), h9]

/-- **C104**: with cells of one metre the six values are those of the six neighbouring cells. -/
theorem C104_neighbors_partial (p : V3 ℝ) (c : Cell) (hc : cellOf 1 p = c) :
    ([⟨p.x, p.y + 1, p.z⟩, ⟨p.x, p.y, p.z + 1⟩, ⟨p.x - 1, p.y, p.z⟩, ⟨p.x + 1, p.y, p.z⟩, ⟨p.x, p.y - 1, p.z⟩, ⟨p.x, p.y, p.z - 1⟩] : List (V3 ℝ)).map (cellOf 1) =
      [⟨c.x, c.y + 1, c.z⟩, ⟨c.x, c.y, c.z + 1⟩, ⟨c.x - 1, c.y, c.z⟩, ⟨c.x + 1, c.y, c.z⟩, ⟨c.x, c.y - 1, c.z⟩, ⟨c.x, c.y, c.z - 1⟩] := by
  subst hc
  simp [cellOf]

/-- **C104** (violated): with larger cells they are not: every cell has points of which all six "neighbors" lie in the cell itself, as soon as the cells are larger than
two metres. -/
theorem C104_neighbors_violated (sc : ℝ) (hs : 2 < sc) (c : Cell) : ∃ p : V3 ℝ, cellOf sc p = c ∧
    ∀ q ∈ ([⟨p.x, p.y + 1, p.z⟩, ⟨p.x, p.y, p.z + 1⟩, ⟨p.x - 1, p.y, p.z⟩, ⟨p.x + 1, p.y, p.z⟩, ⟨p.x, p.y - 1, p.z⟩, ⟨p.x, p.y, p.z - 1⟩] : List (V3 ℝ)),
      cellOf sc q = c := by
  have h0 : 0 < sc := by linarith
  have f : ∀ (n : ℤ) (d : ℝ), -1 ≤ d → d ≤ 1 → ⌊(((n : ℝ) + 1 / 2) * sc + d) / sc⌋ = n := by
    intro n d h1 h2
    rw [Int.floor_eq_iff, le_div_iff₀ h0, div_lt_iff₀ h0]
    constructor <;> nlinarith
  have e : ∀ n : ℤ, ⌊(((n : ℝ) + 1 / 2) * sc) / sc⌋ = n := fun n => by have := f n 0 (by norm_num) (by norm_num); rwa [add_zero] at this
  have g : ∀ n : ℤ, ⌊(((n : ℝ) + 1 / 2) * sc - 1) / sc⌋ = n := fun n => by have := f n (-1) (by norm_num) (by norm_num); rwa [← sub_eq_add_neg] at this
  have a : ∀ n : ℤ, ⌊(((n : ℝ) + 1 / 2) * sc + 1) / sc⌋ = n := fun n => f n 1 (by norm_num) (by norm_num)
  refine ⟨⟨((c.x : ℝ) + 1 / 2) * sc, ((c.y : ℝ) + 1 / 2) * sc, ((c.z : ℝ) + 1 / 2) * sc⟩, ?_, ?_⟩
  · unfold cellOf; dsimp only; rw [e, e, e]
  · intro q hq
    simp only [List.mem_cons, List.not_mem_nil, or_false] at hq
    rcases hq with rfl | rfl | rfl | rfl | rfl | rfl <;> unfold cellOf <;> dsimp only <;> simp only [e, g, a]

/-! ## Examples -/

/-- no risk heuristic -/
def exHeur (risk : Bool) : HeurCfg := ⟨2, 10, 1, 5, 1, risk, false⟩

/-- a node with a map, asked about a point: it answers; and the same node without the map crashes -/
example : ∃ r, clickPoint 1 (exReady []) (exHeur false) 0 (fun _ => some (-1)) [] ⟨5 / 2, 3 / 2, 7 / 2⟩ = some r := by
  rw [C104_defined]
  refine ⟨by simp [exReady, exGWorld], ?_, fun h => absurd h (by simp [exHeur])⟩
  refine ⟨singleRisk 1 (exGWorld (some (exTree []))) (cellOf (1 : ℝ) ⟨5 / 2, 3 / 2, 7 / 2⟩), ?_⟩
  have hm : (exReady []).mem = ⟨exGWorld (some (exTree [])), fun _ => none⟩ := rfl
  unfold seenRisk cachedRisk
  rw [hm]
  dsimp only
  rw [exRisk_eq]
  rfl
example : exStart.mem.world.tree = none := rfl

/-- obstacle points that change the risk of a cell: the two answers of `C104_changes_answers_violated` differ -/
example : ∃ (st : GlobalSt) (c : Cell) (cs : List Cell), st.mem.cache c = none ∧
    cellRisk 1 (addObstacles st.mem cs).world c ≠ seenRisk 1 st.mem c := by
  let W : RiskWorld ℝ := { exGWorld (some fun _ => some 0) with prob := fun _ => 1 / 2, explore := 0 }
  refine ⟨{ exStart with mem := ⟨W, fun _ => none⟩ }, ⟨2, 1, 3⟩, [⟨2, 1, 3⟩], rfl, ?_⟩
  have hflow : ∀ W' : RiskWorld ℝ, W'.flow = 0 → W'.robotRadius = 1 / 2 → W'.resolution = 1 → ∀ c, cellRisk 1 W' c = some (singleRisk 1 W' c) := by
    intro W' h1 h2 h3 c
    rw [C60_cell_risk_law 1 W' c (by rw [h2]; norm_num) (by rw [h2, h3]; norm_num), h1]
    simp
  have e1 : seenRisk 1 (⟨W, fun _ => none⟩ : CacheSt ℝ) ⟨2, 1, 3⟩ = some 0 := by
    unfold seenRisk cachedRisk
    dsimp only
    rw [hflow W rfl rfl rfl]
    simp only [Option.map_some, Option.some.injEq]
    unfold singleRisk
    simp [W, exGWorld]
  have e2 : cellRisk 1 (addObstacles (⟨W, fun _ => none⟩ : CacheSt ℝ) [⟨2, 1, 3⟩]).world ⟨2, 1, 3⟩ = some (singleRisk 1 (addObstacles (⟨W, fun _ => none⟩ : CacheSt ℝ) [⟨2, 1, 3⟩]).world ⟨2, 1, 3⟩) :=
    hflow _ rfl rfl rfl _
  dsimp only
  rw [e1, e2]
  simp only [ne_eq, Option.some.injEq]
  have hp : altPrior (1 : ℝ) ⟨2, 1, 3⟩ = 833 / 10000 := by
    unfold altPrior
    have : roundAway (pos (1 : ℝ) 3) = 4 := by
      unfold roundAway pos
      rw [if_pos (by norm_num), Int.floor_eq_iff]
      norm_num
    simp only [this]
    norm_num [altPriorTable]
    rfl
  unfold singleRisk
  simp [W, exGWorld, addObstacles, hp, posterior]
  norm_num

end

end Global
end Avoidance
