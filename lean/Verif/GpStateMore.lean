import Verif.GpStateProps

/-!
# The state of the global planner: what is answered, what is planned for (C57, C58)
-/

namespace Avoidance
namespace Global

set_option linter.unusedSectionVars false

section
variable {K : Type*} [Field K] [LinearOrder K] [IsStrictOrderedRing K] [FloorRing K]

/-! ## C57 -/

/-- The last map of a history (`none`: no map arrived). -/
def lastMap : List (CacheEvent K) → Option ((Cell → Option K) × K)
  | [] => none
  | .map (some t) res :: es => some ((lastMap es).getD (t, res))
  | _ :: es => lastMap es

/-- The last parameters of a history (`none`: no reconfiguration). -/
def lastConf : List (CacheEvent K) → Option (K × K)
  | [] => none
  | .reconfigure flow explore :: es => some ((lastConf es).getD (flow, explore))
  | _ :: es => lastConf es

/-- **C57**: what "the current map" is. After any history the map is the last one received, the parameters are the last ones set, and an
obstacle point is known exactly if it was known before or has been reported - obstacle points are never forgotten, with a new map
neither. -/
theorem C57_world (sc : K) (st st' : CacheSt K) (es : List (CacheEvent K)) (h : cacheRun sc st es = some st') :
    (∀ t res, lastMap es = some (t, res) → st'.world.tree = some t ∧ st'.world.resolution = res) ∧
    (lastMap es = none → st'.world.tree = st.world.tree ∧ st'.world.resolution = st.world.resolution) ∧
    (∀ f x, lastConf es = some (f, x) → st'.world.flow = f ∧ st'.world.explore = x) ∧
    (lastConf es = none → st'.world.flow = st.world.flow ∧ st'.world.explore = st.world.explore) ∧
    (∀ c, st'.world.occupied c = true ↔ st.world.occupied c = true ∨ CacheEvent.obstacle c ∈ es) ∧
    st'.world.prob = st.world.prob ∧ st'.world.robotRadius = st.world.robotRadius := by
  induction es generalizing st with
  | nil =>
      rw [cacheRun, Option.some_inj] at h
      subst h
      exact ⟨fun _ _ h => by simp [lastMap] at h, fun _ => ⟨rfl, rfl⟩, fun _ _ h => by simp [lastConf] at h, fun _ => ⟨rfl, rfl⟩,
        fun c => by simp, rfl, rfl⟩
  | cons e es ih =>
      rw [cacheRun] at h
      cases hs : cacheStep sc st e with
      | none => rw [hs] at h; exact absurd h (by simp)
      | some st1 =>
          rw [hs] at h
          dsimp only at h
          obtain ⟨i1, i2, i3, i4, i5, i6, i7⟩ := ih st1 h
          cases e with
          | query c =>
              have hw : st1.world = st.world := by
                have hs' : (cachedRisk sc st c).map Prod.snd = some st1 := hs
                unfold cachedRisk at hs'
                cases hc : st.cache c with
                | some r => rw [hc] at hs'; simp at hs'; rw [← hs']
                | none =>
                    rw [hc] at hs'
                    dsimp only at hs'
                    cases hr : cellRisk sc st.world c with
                    | none => rw [hr] at hs'; simp at hs'
                    | some r => rw [hr] at hs'; simp at hs'; rw [← hs']
              rw [hw] at i2 i4 i5 i6 i7
              exact ⟨i1, i2, i3, i4, fun d => by rw [i5 d]; simp, i6, i7⟩
          | map t res =>
              cases t with
              | none => simp [cacheStep] at hs
              | some t =>
                  unfold cacheStep at hs
                  rw [Option.some_inj] at hs
                  subst hs
                  refine ⟨fun t' res' hl => ?_, fun hl => ?_, i3, i4, fun d => by rw [i5 d]; simp, i6, i7⟩
                  · unfold lastMap at hl
                    rw [Option.some_inj] at hl
                    cases hm : lastMap es with
                    | none =>
                        rw [hm] at hl
                        simp only [Option.getD_none, Prod.mk.injEq] at hl
                        obtain ⟨rfl, rfl⟩ := hl
                        exact i2 hm
                    | some p =>
                        rw [hm] at hl
                        simp only [Option.getD_some] at hl
                        subst hl
                        exact i1 _ _ hm
                  · unfold lastMap at hl; simp at hl
          | obstacle c =>
              unfold cacheStep at hs
              rw [Option.some_inj] at hs
              subst hs
              refine ⟨i1, i2, i3, i4, fun d => ?_, i6, i7⟩
              rw [i5 d]
              simp only [Bool.or_eq_true, beq_iff_eq, List.mem_cons, CacheEvent.obstacle.injEq]
              tauto
          | reconfigure f x =>
              unfold cacheStep at hs
              rw [Option.some_inj] at hs
              subst hs
              refine ⟨i1, i2, fun f' x' hl => ?_, fun hl => ?_, fun d => by rw [i5 d]; simp, i6, i7⟩
              · unfold lastConf at hl
                rw [Option.some_inj] at hl
                cases hm : lastConf es with
                | none =>
                    rw [hm] at hl
                    simp only [Option.getD_none, Prod.mk.injEq] at hl
                    obtain ⟨rfl, rfl⟩ := hl
                    exact i4 hm
                | some p =>
                    rw [hm] at hl
                    simp only [Option.getD_some] at hl
                    subst hl
                    exact i3 _ _ hm
              · unfold lastConf at hl; simp at hl

/-- **C57**: a question is always answered if the risk of the cell is defined, and asking changes nothing but the memory of answers. -/
theorem C57_answered (sc : K) (st : CacheSt K) (c : Cell) (h : ∃ r, cellRisk sc st.world c = some r) :
    ∃ r st', cachedRisk sc st c = some (r, st') ∧ st'.world = st.world ∧ cachedRisk sc st' c = some (r, st') := by
  obtain ⟨r, hr⟩ := h
  unfold cachedRisk
  cases hc : st.cache c with
  | some r' => exact ⟨r', st, rfl, rfl, by rw [hc]⟩
  | none =>
      dsimp only
      rw [hr]
      exact ⟨r, _, rfl, rfl, by simp⟩

/-! ## C58 -/

/-- The goal (and what is left of the stack) a planning cycle plans for: the current one as long as it is neither reached nor blocked,
otherwise the one it interrupted. -/
def goalForCycle (sc : K) (st : GpSt K) : GoalCell K × List (GoalCell K) :=
  if st.goal.withinPosition sc st.pos ∨ st.blocked = true then
    match st.waypoints with
    | g :: rest => (g, rest)
    | [] => if st.blocked = true then (⟨cellOf sc st.pos, 1, false⟩, []) else (st.goal, [])
  else (st.goal, st.waypoints)

/-- **C58**: a planning cycle plans for the current goal until the vehicle is within its radius or the goal is found to be blocked, and
then returns to the goal that was interrupted; the search is called for exactly that goal, from the current position and velocity.
If the goal or the vehicle's own cell is not free, or the search finds nothing, the path is kept as it was (without a goal to return to, a
blocked goal is replaced by the vehicle's own cell, and so is the path); otherwise the path found is the path followed. The goal counts
as blocked after the cycle exactly if in this cycle it was not free or the search found nothing. -/
theorem C58_cycle_law (sc : K) (E : PlanEnv K) (st : GpSt K) :
    ∃ st0 : GpSt K, st0.goal = (goalForCycle sc st).1 ∧ st0.waypoints = (goalForCycle sc st).2 ∧ st0.pos = st.pos ∧ st0.vel = st.vel ∧
      st0.maxIter = st.maxIter ∧ st0.factor = st.factor ∧ st0.back = st.back ∧ st0.blocked = false ∧
      st0.path = (if st.blocked = true ∧ st.waypoints = [] then [cellOf sc st.pos] else st.path) ∧
      (E.mustBeFree = true ∧ tooRisky E st0.goal.cell = true → plannerLoop sc E st = { st0 with blocked := true }) ∧
      (¬ (E.mustBeFree = true ∧ tooRisky E st0.goal.cell = true) → E.occupied (cellOf sc st.pos) = true → plannerLoop sc E st = st0) ∧
      (¬ (E.mustBeFree = true ∧ tooRisky E st0.goal.cell = true) → E.occupied (cellOf sc st.pos) = false →
        (∀ f m, E.find st0 = ⟨f, m, none⟩ → plannerLoop sc E st = { st0 with factor := f, maxIter := m, blocked := true }) ∧
        (∀ f m p, E.find st0 = ⟨f, m, some p⟩ →
          (plannerLoop sc E st).path = p ∧ (plannerLoop sc E st).factor = f ∧ (plannerLoop sc E st).maxIter = m ∧
          (plannerLoop sc E st).blocked = false)) := by
  refine ⟨if st.goal.withinPosition sc st.pos ∨ st.blocked = true then popNextGoal sc st else st, ?_⟩
  have hst0 : ∀ st0, (if st.goal.withinPosition sc st.pos ∨ st.blocked = true then popNextGoal sc st else st) = st0 →
      plannerLoop sc E st = planPath sc E st0 ∧
      st0.goal = (goalForCycle sc st).1 ∧ st0.waypoints = (goalForCycle sc st).2 ∧ st0.pos = st.pos ∧ st0.vel = st.vel ∧
      st0.maxIter = st.maxIter ∧ st0.factor = st.factor ∧ st0.back = st.back ∧ st0.blocked = false ∧
      st0.path = (if st.blocked = true ∧ st.waypoints = [] then [cellOf sc st.pos] else st.path) := by
    intro st0 h0
    refine ⟨by unfold plannerLoop; rw [h0], ?_⟩
    unfold goalForCycle
    by_cases hp : st.goal.withinPosition sc st.pos ∨ st.blocked = true
    · rw [if_pos hp] at h0 ⊢
      unfold popNextGoal at h0
      cases hw : st.waypoints with
      | cons g rest =>
          rw [hw] at h0
          dsimp only at h0
          subst h0
          refine ⟨rfl, rfl, rfl, rfl, rfl, rfl, rfl, rfl, ?_⟩
          rw [if_neg (by simp)]; rfl
      | nil =>
          rw [hw] at h0
          dsimp only at h0 ⊢
          by_cases hb : st.blocked = true
          · rw [if_pos hb] at h0 ⊢
            subst h0
            refine ⟨rfl, hw, rfl, rfl, rfl, rfl, rfl, rfl, ?_⟩
            rw [if_pos ⟨hb, rfl⟩]; rfl
          · rw [if_neg hb] at h0 ⊢
            subst h0
            refine ⟨rfl, hw, rfl, rfl, rfl, rfl, rfl, by simpa using hb, ?_⟩
            rw [if_neg (fun h => hb h.1)]
    · rw [if_neg hp] at h0 ⊢
      subst h0
      have hb : ¬ st.blocked = true := fun h => hp (Or.inr h)
      refine ⟨rfl, rfl, rfl, rfl, rfl, rfl, rfl, by simpa using hb, ?_⟩
      rw [if_neg (fun h => hb h.1)]
  generalize (if st.goal.withinPosition sc st.pos ∨ st.blocked = true then popNextGoal sc st else st) = st0 at hst0 ⊢
  obtain ⟨hl, h1, h2, h3, h4, h5, h6, h7, h8, h9⟩ := hst0 st0 rfl
  refine ⟨h1, h2, h3, h4, h5, h6, h7, h8, h9, fun hr => ?_, fun hr ho => ?_, fun hr ho => ⟨fun f m hf => ?_, fun f m p hf => ?_⟩⟩
  · rw [hl]; unfold planPath getGlobalPath; rw [if_pos hr]; rfl
  · rw [hl]; unfold planPath getGlobalPath; rw [if_neg hr, h3, if_pos ho]; rfl
  · rw [hl]
    have hg : getGlobalPath sc E st0 = ({ st0 with factor := f, maxIter := m, blocked := true }, false) := by
      unfold getGlobalPath
      rw [if_neg hr, h3, if_neg (by rw [ho]; simp), hf]
    unfold planPath
    rw [hg]
    rfl
  · rw [hl]
    have hg : getGlobalPath sc E st0 = ({ st0 with factor := f, maxIter := m, path := p }, true) := by
      unfold getGlobalPath
      rw [if_neg hr, h3, if_neg (by rw [ho]; simp), hf]
    unfold planPath
    rw [hg]
    dsimp only
    rw [if_neg (by simp)]
    split
    · unfold setIntermediateGoal
      dsimp only
      split
      · exact ⟨rfl, rfl, rfl, rfl⟩
      · exact ⟨rfl, rfl, rfl, h8⟩
    · exact ⟨rfl, rfl, rfl, h8⟩

/-- **C58**: goals of the user. A clicked goal is always taken: the cell that contains the point at the configured altitude. A goal of the
flight controller is taken if it is valid and its cell differs from the current goal's in x or y (cells larger than a millimetre); then it
becomes the goal with radius 1, not blocked, whatever was planned before. -/
theorem C58_goal_taken (sc : K) (hs : 1 / 1000 < sc) (st : GpSt K) (alt radius x y : K) (p : V3 K) :
    (InBox sc (clickGoal sc alt radius st x y).goal.cell ⟨x, y, alt⟩ ∧ (clickGoal sc alt radius st x y).goal.radius = radius ∧
      (clickGoal sc alt radius st x y).goal.temporary = false ∧ (clickGoal sc alt radius st x y).blocked = false) ∧
    ((cellOf sc p).x ≠ st.goal.cell.x ∨ (cellOf sc p).y ≠ st.goal.cell.y →
      InBox sc (fcuGoal sc st true p).goal.cell p ∧ (fcuGoal sc st true p).goal.radius = 1 ∧
      (fcuGoal sc st true p).goal.temporary = false ∧ (fcuGoal sc st true p).blocked = false) ∧
    fcuGoal sc st false p = st := by
  have h0 : 0 < sc := lt_trans (by norm_num) hs
  have hd : ∀ a b : ℤ, a ≠ b → 1 / 1000 < |pos sc b - pos sc a| := by
    intro a b hab
    have e : pos sc b - pos sc a = sc * ((b - a : ℤ) : K) := by unfold pos; push_cast; ring
    rw [e, abs_mul, abs_of_pos h0]
    have : (1 : K) ≤ |((b - a : ℤ) : K)| := by
      rw [← Int.cast_abs]
      have : 1 ≤ |b - a| := Int.one_le_abs (by omega)
      exact_mod_cast this
    nlinarith
  refine ⟨⟨(C52_cell_unique sc h0 _ _).mp rfl, rfl, rfl, rfl⟩, fun hne => ?_, ?_⟩
  · have hf : fcuGoal sc st true p = setGoal st ⟨cellOf sc p, 1, false⟩ := by
      unfold fcuGoal
      dsimp only
      rw [if_pos]
      refine ⟨rfl, ?_⟩
      rcases hne with h | h
      · exact Or.inl (hd _ _ h)
      · exact Or.inr (hd _ _ h)
    rw [hf]
    exact ⟨(C52_cell_unique sc h0 _ _).mp rfl, rfl, rfl, rfl⟩
  · unfold fcuGoal
    dsimp only
    rw [if_neg (by simp)]

end

/-! ## Non-vacuity -/

/-- a cycle that returns from a reached intermediate goal to the mission goal and finds a path to it -/
example : ∃ (E : PlanEnv ℚ) (st : GpSt ℚ), st.waypoints ≠ [] ∧ st.goal.withinPosition 1 st.pos ∧
    (plannerLoop 1 E st).goal = ⟨⟨9, 0, 3⟩, 1, false⟩ ∧ (plannerLoop 1 E st).path = [⟨0, 0, 3⟩, ⟨9, 0, 3⟩] :=
  ⟨{ risk := fun _ => some 0, occupied := fun _ => false, mustBeFree := true, maxCellRisk := 1/2,
     find := fun s => ⟨1, 10, some [cellOf 1 s.pos, s.goal.cell]⟩ },
   { pos := ⟨1/2, 1/2, 7/2⟩, vel := ⟨0, 0, 0⟩, goal := ⟨⟨0, 0, 3⟩, 1, true⟩, goingBack := false, blocked := false, back := [], maxIter := 10,
     factor := 1, path := [], waypoints := [⟨⟨9, 0, 3⟩, 1, false⟩] }, by simp, by decide +kernel, by decide +kernel, by decide +kernel⟩

/-- a history with a map, two obstacle points and a reconfiguration -/
example : ∃ st', cacheRun 1 exCache [.obstacle ⟨1, 1, 1⟩, .map (some fun _ => none) 2, .reconfigure 0 1, .obstacle ⟨2, 1, 1⟩] = some st' := ⟨_, rfl⟩

end Global
end Avoidance
