import Verif.GpFallback
import Verif.GpNodeProps

/-!
# The last resort of the planner (C76)
-/

namespace Avoidance
namespace Global

set_option linter.unusedSectionVars false

section
variable {K : Type*} [Field K] [LinearOrder K] [IsStrictOrderedRing K] [FloorRing K]

/-- The configured costs and the risks are not negative. -/
structure GoodOld (C : OldCfg K) (risk : Cell → Option K) : Prop where
  riskFactor : 0 ≤ C.riskFactor
  up : 0 ≤ C.up
  down : 0 ≤ C.down
  risk : ∀ c r, risk c = some r → 0 ≤ r

theorem openNeighbors_nonneg {C : OldCfg K} (h1 : 0 ≤ C.up) (h2 : 0 ≤ C.down) (c : Cell) (is3D : Bool) :
    ∀ p ∈ openNeighbors C c is3D, 0 ≤ p.2 := by
  intro p hp
  unfold openNeighbors at hp
  simp only [List.mem_append, List.mem_cons, List.not_mem_nil, or_false] at hp
  have e1 : (0 : K) ≤ 1 := zero_le_one
  have e2 : (0 : K) ≤ 141 / 100 := by norm_num
  rcases hp with (hp | hp) | hp
  · rcases hp with rfl | rfl | rfl | rfl | rfl | rfl | rfl | rfl <;> assumption
  · split at hp
    · rw [List.mem_singleton] at hp; subst hp; exact h1
    · exact absurd hp List.not_mem_nil
  · split at hp
    · rw [List.mem_singleton] at hp; subst hp; exact h2
    · exact absurd hp List.not_mem_nil

theorem old_nonneg {C : OldCfg K} {risk : Cell → Option K} (h : GoodOld C risk) (sc : K) (is3D : Bool) (t : Cell)
    (pick : List ((Cell × Bool) × K) → ℕ) : NonnegCost (oldProblem sc C risk is3D t pick) := by
  intro u v c hc
  have hc' : oldCost C risk is3D u v = some c := hc
  unfold oldCost at hc'
  cases h1 : (openNeighbors C u is3D).find? (fun p => decide (p.1 = v)) with
  | none => rw [h1] at hc'; exact absurd hc' (by simp)
  | some p =>
      cases h2 : risk v with
      | none => rw [h1, h2] at hc'; exact absurd hc' (by simp)
      | some r =>
          rw [h1, h2] at hc'
          rw [← Option.some_inj.mp hc']
          have := openNeighbors_nonneg h.up h.down u is3D p (List.mem_of_find?_eq_some h1)
          have := mul_nonneg h.riskFactor (h.risk v r h2)
          linarith

/-- Walking back by comparing cells is walking back by comparing pointers. -/
theorem walkBack_cell {P : Problem Cell Cell K} (hkey : ∀ c, P.key c = c) {s : Cell} {st : SearchSt Cell Cell K} (hI : SearchInv P s st) :
    ∀ (n : ℕ) (r : Ref Cell), RefOk P s r → (∃ d, st.dist (P.key r.1) = some d) →
      walkBackCell st.parent s n r.1 = walkBack P st n r := by
  intro n
  induction n with
  | zero => intro r _ _; rfl
  | succ n ih =>
      intro r hok hd
      unfold walkBackCell walkBack
      obtain ⟨d, hd⟩ := hd
      rcases hok with ⟨h1, h2⟩ | ⟨h1, h2⟩
      · rw [if_pos h2, if_pos h1]
      · have hne : r.1 ≠ s := by rw [hkey, hkey] at h2; exact h2
        rw [if_neg hne, if_neg (by rw [h1]; simp)]
        obtain ⟨p, hp, hpok, dp, v, c, h3, _⟩ := hI.edge _ d hd h2
        have hp' : st.parent r.1 = some p := by rw [hkey] at hp; exact hp
        rw [hkey r.1, hp']
        dsimp only
        rw [ih p hpok ⟨dp, h3⟩]

/-- **C76**: `findPathOld` is the generic search on cells, with the parent of the start put in front of the path. -/
theorem findPathOld_eq {C : OldCfg K} {risk : Cell → Option K} (h : GoodOld C risk) (sc : K) (is3D : Bool) (s t parent : Cell)
    (pick : List ((Cell × Bool) × K) → ℕ) (max n : ℕ) :
    findPathOld sc C risk is3D s t parent pick max n =
      (findSmoothPath (oldProblem sc C risk is3D t pick) s max n).map (fun q => q.1.map (fun l => parent :: l)) := by
  unfold findPathOld findSmoothPath
  cases hr : runLoop (oldProblem sc C risk is3D t pick) max n (SearchSt.init (oldProblem sc C risk is3D t pick) s) with
  | none => rfl
  | some q =>
      obtain ⟨o, st⟩ := q
      obtain ⟨hI, hfound⟩ := runLoop_inv (old_nonneg h sc is3D t pick) max n (SearchInv.init _ s) hr
      cases o with
      | none => rfl
      | some r =>
          dsimp only
          obtain ⟨hok, hd, _⟩ := hfound r rfl
          rw [walkBack_cell (fun _ => rfl) hI n r hok hd]
          cases walkBack (oldProblem sc C risk is3D t pick) st n r with
          | none => rfl
          | some back =>
              simp only [Option.map_some]
              rw [List.reverse_append]
              rfl

/-- **Specification**: a step of the cell search: to one of the eight horizontal neighbours, or up (not above the maximum
altitude), or down (not below the minimum altitude). -/
def OpenStep (C : OldCfg K) (is3D : Bool) (a b : Cell) : Prop :=
  (b ∈ a.neighbors ∧ b.z = a.z) ∨ (is3D = true ∧ b = ⟨a.x, a.y, a.z + 1⟩ ∧ a.z < C.maxAltitude) ∨
    (is3D = true ∧ b = ⟨a.x, a.y, a.z - 1⟩ ∧ C.minAltitude < a.z)

theorem openNeighbors_step (C : OldCfg K) (is3D : Bool) (a b : Cell) :
    b ∈ (openNeighbors C a is3D).map Prod.fst ↔ OpenStep C is3D a b := by
  unfold openNeighbors OpenStep Cell.neighbors
  obtain ⟨ax, ay, az⟩ := a
  obtain ⟨bx, b_y, bz⟩ := b
  simp only [List.map_append, List.map_cons, List.map_nil, List.mem_append, List.mem_cons, List.not_mem_nil, or_false, Cell.mk.injEq]
  constructor
  · rintro ((h | h) | h)
    · left
      rcases h with h | h | h | h | h | h | h | h <;> obtain ⟨rfl, rfl, rfl⟩ := h <;> simp
    · right; left
      split at h
      · rename_i hc
        simp only [List.map_cons, List.map_nil, List.mem_cons, List.not_mem_nil, or_false, Cell.mk.injEq] at h
        exact ⟨hc.1, h, hc.2⟩
      · simp at h
    · right; right
      split at h
      · rename_i hc
        simp only [List.map_cons, List.map_nil, List.mem_cons, List.not_mem_nil, or_false, Cell.mk.injEq] at h
        exact ⟨hc.1, h, hc.2⟩
      · simp at h
  · rintro (⟨h, hz⟩ | ⟨h3, h, hz⟩ | ⟨h3, h, hz⟩)
    · left; left
      rcases h with h | h | h | h | h | h | h | h | h | h
      · obtain ⟨rfl, rfl, rfl⟩ := h; simp
      · obtain ⟨rfl, rfl, rfl⟩ := h; simp
      · obtain ⟨rfl, rfl, rfl⟩ := h; simp
      · obtain ⟨rfl, rfl, rfl⟩ := h; simp
      · omega
      · omega
      · obtain ⟨rfl, rfl, rfl⟩ := h; simp
      · obtain ⟨rfl, rfl, rfl⟩ := h; simp
      · obtain ⟨rfl, rfl, rfl⟩ := h; simp
      · obtain ⟨rfl, rfl, rfl⟩ := h; simp
    · left; right
      rw [if_pos ⟨h3, hz⟩]
      simp [h]
    · right
      rw [if_pos ⟨h3, hz⟩]
      simp [h]

/-- **Specification**: the cell is not too risky. -/
def LowRisk (C : OldCfg K) (risk : Cell → Option K) (c : Cell) : Prop :=
  ∃ r, risk c = some r ∧ C.riskFactor * r ≤ C.riskFactor * C.maxCellRisk

/-- **C76**: whenever the cell search reports a path, it is the given parent, the start, and further cells up to the target,
every one a step from the one before, none of them too risky - with the exception of the start and the target, whose risk is never
looked at. -/
theorem C76_cell_search {C : OldCfg K} {risk : Cell → Option K} (h : GoodOld C risk) (sc : K) (is3D : Bool) (s t parent : Cell)
    (pick : List ((Cell × Bool) × K) → ℕ) (max n : ℕ) {path : List Cell}
    (hf : findPathOld sc C risk is3D s t parent pick max n = some (some path)) :
    ∃ rest, path = parent :: s :: rest ∧ (s :: rest).getLast? = some t ∧
      (s :: rest).IsChain (fun a b => OpenStep C is3D a b ∧ (b = t ∨ LowRisk C risk b)) ∧ (s :: rest).Nodup := by
  rw [findPathOld_eq h] at hf
  rw [Option.map_eq_some_iff] at hf
  obtain ⟨⟨o, it⟩, hf, ho⟩ := hf
  dsimp only at ho
  rw [Option.map_eq_some_iff] at ho
  obtain ⟨l, hl, hlp⟩ := ho
  subst hl
  obtain ⟨⟨c, hpc⟩, hhd, ⟨g, hlast, hgoal⟩, hnd⟩ := C53_path_legal _ (old_nonneg h sc is3D t pick) s max n hf
  cases l with
  | nil => exact absurd hhd (by simp)
  | cons s' rest =>
      rw [List.head?_cons, Option.some_inj] at hhd
      subst hhd
      have hg : g = t := of_decide_eq_true hgoal
      refine ⟨rest, hlp.symm, by rw [hlast, hg], ?_, ?_⟩
      · refine hpc.isChain.imp (fun a b hab => ?_)
        obtain ⟨c, v, h1, h2, h3, h4⟩ := hab
        have hv : v = b := h3
        subst hv
        refine ⟨(openNeighbors_step C is3D a v).mp h1, ?_⟩
        by_cases hvt : v = t
        · exact Or.inl hvt
        · right
          have h2' : oldSkips C risk t v = false := by
            have : (!oldSkips C risk t v) = true := h2
            simpa using this
          have h4' : oldCost C risk is3D a v = some c := h4
          unfold oldCost at h4'
          cases hr : risk v with
          | none => rw [hr] at h4'; revert h4'; cases (openNeighbors C a is3D).find? (fun p => decide (p.1 = v)) <;> simp
          | some r =>
              refine ⟨r, hr, ?_⟩
              unfold oldSkips at h2'
              rw [hr] at h2'
              simp only [Bool.and_eq_false_iff, decide_eq_false_iff_not, not_lt, ne_eq, not_not] at h2'
              rcases h2' with h2' | h2'
              · exact h2'
              · exact absurd h2' hvt
      · have : List.map (oldProblem sc C risk is3D t pick).key (s' :: rest) = s' :: rest := by
          have : (oldProblem sc C risk is3D t pick).key = id := rfl
          rw [this, List.map_id]
        rw [this] at hnd
        exact hnd

theorem aboveCell_eq (c : Cell) (alt : ℤ) : aboveCell (1 : K) c alt = ⟨c.x, c.y, alt⟩ := by
  unfold aboveCell cellOf
  simp

theorem chain_to {R : Cell → Cell → Prop} : ∀ (l : List Cell) (a : Cell), (a :: l).IsChain R → ∀ b ∈ l, ∃ p, R p b
  | [], _, _, b, hb => absurd hb List.not_mem_nil
  | c :: l, a, h, b, hb => by
      rw [List.isChain_cons_cons] at h
      rcases List.mem_cons.mp hb with rfl | hb
      · exact ⟨a, h.1⟩
      · exact chain_to l c h.2 b hb

/-- the altitude never exceeds the maximum along open steps that start at or below it -/
theorem chain_alt {C : OldCfg K} {is3D : Bool} : ∀ (l : List Cell) (a : Cell), (a :: l).IsChain (OpenStep C is3D) → a.z ≤ C.maxAltitude →
    ∀ b ∈ a :: l, b.z ≤ C.maxAltitude
  | [], a, _, ha, b, hb => by
      rw [List.mem_singleton] at hb
      rw [hb]; exact ha
  | c :: l, a, h, ha, b, hb => by
      rw [List.isChain_cons_cons] at h
      rcases List.mem_cons.mp hb with rfl | hb
      · exact ha
      · refine chain_alt l c h.2 ?_ b hb
        rcases h.1 with ⟨_, h2⟩ | ⟨_, h2, h3⟩ | ⟨_, h2, h3⟩
        · omega
        · rw [h2]; dsimp only; omega
        · rw [h2]; dsimp only; omega

/-- horizontal steps keep the altitude -/
theorem chain_flat {C : OldCfg K} : ∀ (l : List Cell) (a : Cell), (a :: l).IsChain (OpenStep C false) → ∀ b ∈ a :: l, b.z = a.z
  | [], a, _, b, hb => by rw [List.mem_singleton] at hb; rw [hb]
  | c :: l, a, h, b, hb => by
      rw [List.isChain_cons_cons] at h
      have hc : c.z = a.z := by
        rcases h.1 with ⟨_, h2⟩ | ⟨h2, _⟩ | ⟨h2, _⟩
        · exact h2
        · exact absurd h2 (by simp)
        · exact absurd h2 (by simp)
      rcases List.mem_cons.mp hb with rfl | hb
      · rfl
      · rw [chain_flat l c h.2 b hb, hc]

/-- **C76**: the last resort. Whenever `find2DPath` reports a path (cell size 1), the path leads from the start up to the cell
above the start at the maximum altitude, horizontally to the cell above the goal, and down to the goal: consecutive points are
equal or one step apart, no cell lies above the layer of the maximum altitude (if the start and the goal do not), and every cell is
low risk except possibly the start, the goal and the two cells above them. -/
theorem C76_fallback_path {C : OldCfg K} {risk : Cell → Option K} (h : GoodOld C risk) (s t : Cell)
    (hs : s.z ≤ C.maxAltitude) (pick : List ((Cell × Bool) × K) → ℕ) (max n : ℕ) {path : List Cell}
    (hf : find2DPath (1 : K) C risk s t pick max n = some (some path)) :
    path.head? = some s ∧ path.getLast? = some t ∧ ⟨s.x, s.y, C.maxAltitude⟩ ∈ path ∧ ⟨t.x, t.y, C.maxAltitude⟩ ∈ path ∧
    path.IsChain (fun a b => a = b ∨ OpenStep C true a b) ∧ (∀ c ∈ path, c.z ≤ C.maxAltitude) ∧
    (∀ c ∈ path, LowRisk C risk c ∨ c = s ∨ c = t ∨ c = ⟨s.x, s.y, C.maxAltitude⟩ ∨ c = ⟨t.x, t.y, C.maxAltitude⟩) := by
  unfold find2DPath at hf
  dsimp only at hf
  rw [aboveCell_eq, aboveCell_eq] at hf
  generalize hu : findPathOld (1 : K) C risk true s ⟨s.x, s.y, C.maxAltitude⟩ s pick max n = u at hf
  generalize hd : findPathOld (1 : K) C risk true ⟨t.x, t.y, C.maxAltitude⟩ t ⟨t.x, t.y, C.maxAltitude⟩ pick max n = d at hf
  generalize hv : findPathOld (1 : K) C risk false ⟨s.x, s.y, C.maxAltitude⟩ ⟨t.x, t.y, C.maxAltitude⟩
    ⟨s.x, s.y, C.maxAltitude⟩ pick max n = v at hf
  match u, d, v, hf with
  | none, _, _, hf => simp at hf
  | some none, none, _, hf => simp at hf
  | some none, some none, none, hf => simp at hf
  | some none, some none, some _, hf => simp at hf
  | some none, some (some _), none, hf => simp at hf
  | some none, some (some _), some _, hf => simp at hf
  | some (some _), none, _, hf => simp at hf
  | some (some _), some none, none, hf => simp at hf
  | some (some _), some none, some _, hf => simp at hf
  | some (some _), some (some _), none, hf => simp at hf
  | some (some _), some (some _), some none, hf => simp at hf
  | some (some up), some (some down), some (some vert), hf =>
      have hp : up ++ vert ++ down = path := by
        rw [Option.some_inj, Option.some_inj] at hf; exact hf
      obtain ⟨ru, eu, lu, cu, _⟩ := C76_cell_search h 1 true s _ s pick max n hu
      obtain ⟨rd, ed, ld, cd, _⟩ := C76_cell_search h 1 true _ t _ pick max n hd
      obtain ⟨rv, ev, lv, cv, _⟩ := C76_cell_search h 1 false _ _ _ pick max n hv
      have cu' := cu.imp (fun a b hab => hab.1)
      have cd' := cd.imp (fun a b hab => hab.1)
      have cv' := cv.imp (fun a b hab => hab.1)
      have au := chain_alt ru s cu' hs
      have ad := chain_alt rd _ cd' (le_refl _)
      have av := chain_flat rv _ cv'
      have step32 : ∀ a b, OpenStep C false a b → OpenStep C true a b := by
        intro a b hab
        rcases hab with hab | ⟨h2, _⟩ | ⟨h2, _⟩
        · exact Or.inl hab
        · exact absurd h2 (by simp)
        · exact absurd h2 (by simp)
      subst hp
      refine ⟨by rw [eu]; rfl, ?_, ?_, ?_, ?_, ?_, ?_⟩
      · rw [List.getLast?_append, ed, List.getLast?_cons_cons, ld]; rfl
      · rw [ev]; simp
      · rw [ed]; simp
      · have w : ∀ {b3 : Bool} {x t' : Cell} {r : List Cell}, (x :: r).IsChain (fun a b => OpenStep C b3 a b ∧ (b = t' ∨ LowRisk C risk b)) →
            (x :: x :: r).IsChain (fun a b => a = b ∨ OpenStep C true a b) := by
          intro b3 x t' r hc
          refine List.isChain_cons_cons.mpr ⟨Or.inl rfl, hc.imp (fun a b hab => Or.inr ?_)⟩
          cases b3
          · exact step32 a b hab.1
          · exact hab.1
        have wu := w cu
        have wv := w cv
        have wd := w cd
        rw [← eu] at wu
        rw [← ev] at wv
        rw [← ed] at wd
        refine List.isChain_append.mpr ⟨List.isChain_append.mpr ⟨wu, wv, ?_⟩, wd, ?_⟩
        · intro a ha b hb
          rw [eu, List.getLast?_cons_cons, lu] at ha
          rw [ev, List.head?_cons] at hb
          left
          rw [Option.mem_def, Option.some_inj] at ha hb
          rw [← ha, ← hb]
        · intro a ha b hb
          rw [List.getLast?_append, ev, List.getLast?_cons_cons, lv] at ha
          rw [ed, List.head?_cons] at hb
          left
          rw [Option.mem_def] at ha hb
          rw [Option.some_inj] at hb
          rw [← hb]
          have : (some (⟨t.x, t.y, C.maxAltitude⟩ : Cell)) = some a := ha
          exact (Option.some_inj.mp this).symm
      · intro c hc
        rw [List.mem_append, List.mem_append] at hc
        rcases hc with (hc | hc) | hc
        · rw [eu] at hc
          rcases List.mem_cons.mp hc with rfl | hc
          · exact hs
          · exact au c hc
        · rw [ev] at hc
          rcases List.mem_cons.mp hc with rfl | hc
          · exact le_refl _
          · exact (av c hc).le
        · rw [ed] at hc
          rcases List.mem_cons.mp hc with rfl | hc
          · exact le_refl _
          · exact ad c hc
      · intro c hc
        rw [List.mem_append, List.mem_append] at hc
        rcases hc with (hc | hc) | hc
        · rw [eu] at hc
          rcases List.mem_cons.mp hc with rfl | hc
          · tauto
          rcases List.mem_cons.mp hc with rfl | hc
          · tauto
          obtain ⟨_, hq⟩ := chain_to ru s cu c hc
          rcases hq.2 with hq | hq <;> tauto
        · rw [ev] at hc
          rcases List.mem_cons.mp hc with rfl | hc
          · tauto
          rcases List.mem_cons.mp hc with rfl | hc
          · tauto
          obtain ⟨_, hq⟩ := chain_to rv _ cv c hc
          rcases hq.2 with hq | hq <;> tauto
        · rw [ed] at hc
          rcases List.mem_cons.mp hc with rfl | hc
          · tauto
          rcases List.mem_cons.mp hc with rfl | hc
          · tauto
          obtain ⟨_, hq⟩ := chain_to rd _ cd c hc
          rcases hq.2 with hq | hq <;> tauto

/-- **C76** (violated): the last resort always leaves the permitted altitude: its path contains a cell whose centre lies half a cell
above the maximum altitude, which the main search rejects. -/
theorem C76_fallback_too_high_violated {C : OldCfg K} {risk : Cell → Option K} (h : GoodOld C risk) (s t : Cell)
    (hs : s.z ≤ C.maxAltitude) (pick : List ((Cell × Bool) × K) → ℕ) (max n : ℕ) {path : List Cell}
    (hf : find2DPath (1 : K) C risk s t pick max n = some (some path)) :
    ∃ c ∈ path, pos (1 : K) c.z = (C.maxAltitude : K) + 1 / 2 ∧ ¬ pos (1 : K) c.z < (C.maxAltitude : K) := by
  obtain ⟨_, _, h3, _⟩ := C76_fallback_path h s t hs pick max n hf
  refine ⟨_, h3, ?_, ?_⟩
  · unfold pos; dsimp only; ring
  · unfold pos; dsimp only
    have : (0 : K) < 1 / 2 := by norm_num
    linarith

end

/-- an order of the queue: smallest priority first (first of equals) -/
def pickMin (l : List ((Cell × Bool) × ℚ)) : ℕ :=
  (l.zipIdx.foldl (fun (best : ℕ × ℚ) e => if e.1.2 < best.2 then (e.2, e.1.2) else best) (0, (l.head?.map Prod.snd).getD 0)).1

/-- a small configuration: maximum altitude 4, risk factor 1 -/
def exOld : OldCfg ℚ := { minAltitude := 1, maxAltitude := 4, maxCellRisk := 2/10, riskFactor := 1, up := 5, down := 1, overestimate := 1 }

/-- risk 1 at the cell above the start, at the goal, and at a wall between them below the top layer; 0 elsewhere -/
def exRisk (c : Cell) : Option ℚ :=
  if c = ⟨0, 0, 4⟩ ∨ c = ⟨2, 0, 2⟩ ∨ (c.x = 1 ∧ c.z < 4) then some 1 else some 0

theorem exOld_good : GoodOld exOld exRisk :=
  ⟨by norm_num [exOld], by norm_num [exOld], by norm_num [exOld], fun c r h => by
    unfold exRisk at h
    split at h <;> rw [← Option.some_inj.mp h] <;> norm_num⟩

/-- non-vacuity, and **C76** (violated): the cells above the start and above the goal, and the goal, are used whatever their risk. Here
the cell above the start has risk 1 (five times the maximum) and lies on the reported path. -/
theorem C76_fallback_through_obstacle_violated :
    find2DPath 1 exOld exRisk ⟨0, 0, 2⟩ ⟨2, 0, 2⟩ pickMin 5000 40 =
      some (some [⟨0,0,2⟩, ⟨0,0,2⟩, ⟨0,0,3⟩, ⟨0,0,4⟩, ⟨0,0,4⟩, ⟨0,0,4⟩, ⟨1,0,4⟩, ⟨2,0,4⟩, ⟨2,0,4⟩, ⟨2,0,4⟩, ⟨2,0,3⟩, ⟨2,0,2⟩]) ∧
    exRisk ⟨0, 0, 4⟩ = some 1 ∧ exOld.maxCellRisk = 2 / 10 := by
  refine ⟨by decide +kernel, by decide +kernel, rfl⟩

end Global
end Avoidance
