import Verif.OpenPlan
import Verif.StarPlannerProps
import Verif.LocalPlanner
import Mathlib.Analysis.Real.Pi.Bounds

/-!
# Planning for a goal whose height is left open (C125)
-/

namespace Avoidance

noncomputable section
open Classical

/-- **C125 (the model with a number).** For a goal whose height is a number the model of this property is the one of the other
properties. -/
theorem C125_with_a_number (candidate : PolarPoint ℝ) (d gx gy gz : ℝ) (position velocity : V3 ℝ) (params : CostParams) (closest_pt : V3 ℝ)
    (facing : Bool) (r : ℝ × ℝ) (h : costFunction candidate d ⟨gx, gy, gz⟩ position velocity params closest_pt facing = some r) :
    costFunctionOpen candidate d gx gy (some gz) position velocity params closest_pt.x closest_pt.y facing = (r.1, some r.2) := by
  unfold costFunction at h
  unfold costFunctionOpen
  dsimp only at h ⊢
  simp only [Option.map_some]
  have a : ∀ z z' : ℝ, ∀ x y : ℝ, (cartesianToPolarHistogram ⟨x, y, z⟩ position).z = (cartesianToPolarHistogram ⟨x, y, z'⟩ position).z :=
    fun _ _ _ _ => rfl
  have b : (cartesianToPolarHistogram ⟨closest_pt.x, closest_pt.y, 0⟩ position).z = (cartesianToPolarHistogram closest_pt position).z := rfl
  rw [a 0 gz gx gy, b]
  by_cases h1 : ((⟨gx, gy, gz⟩ : V3 ℝ).minus position).norm < 5
  · rw [if_pos h1] at h ⊢
    by_cases h2 : ((⟨gx, gy, gz⟩ : V3 ℝ).minus position).norm = 0
    · rw [if_pos h2] at h; cases h
    · rw [if_neg h2] at h
      obtain rfl := Option.some.inj h
      rfl
  · rw [if_neg h1] at h ⊢
    obtain rfl := Option.some.inj h
    rfl

/-- The costs other than those of obstacles are not a number (helper). -/
theorem costOpen_nan (candidate : PolarPoint ℝ) (d gx gy : ℝ) (position velocity : V3 ℝ) (params : CostParams) (cx cy : ℝ) (facing : Bool) :
    costFunctionOpen candidate d gx gy none position velocity params cx cy facing = (distanceCost params d, none) := rfl

theorem indexOpen_range (conv : ℤ) (az : ℝ) :
    0 ≤ (indexOpen conv az 6).1 ∧ (indexOpen conv az 6).1 < 60 ∧ 0 ≤ (indexOpen conv az 6).2 ∧ (indexOpen conv az 6).2 < 30 := by
  obtain ⟨h1, h2, -, -⟩ := C04_index_in_range (⟨0, az, 0⟩ : PolarPoint ℝ) 6 (by norm_num) (by norm_num)
  refine ⟨h1, h2, ?_, ?_⟩ <;>
  · unfold indexOpen
    norm_num
    split_ifs <;> omega

theorem facingOpen_some (conv : ℕ × ℕ → ℤ) (h : Histogram ℝ) (he : h.eDim = 30) (hz : h.zDim = 60) (gx gy : ℝ) (position : V3 ℝ)
    (maxr minr : ℝ) : ∃ b, facingOpen conv h gx gy position maxr minr = some b := by
  unfold facingOpen
  dsimp only
  generalize (cellList (List.range 5) 11) = l
  generalize false = b
  induction l generalizing b with
  | nil => exact ⟨b, rfl⟩
  | cons c l ih =>
    obtain ⟨r1, r2, r3, r4⟩ := indexOpen_range (conv c) ((cartesianToPolarHistogram ⟨gx, gy, 0⟩ position).z + (((c.2 : ℤ) - 5 : ℤ) : ℝ) * (ALPHA_RES : ℕ))
    simp only [loopM]
    rw [show (ALPHA_RES : ℕ) = 6 from rfl] at *
    generalize indexOpen (conv c) ((cartesianToPolarHistogram ⟨gx, gy, 0⟩ position).z + (((c.2 : ℤ) - 5 : ℤ) : ℝ) * (6 : ℕ)) 6 = idx at r1 r2 r3 r4 ⊢
    have g : h.getDist idx.2 idx.1 = some (h.dist idx.2.toNat idx.1.toNat) := by
      have := getDist_nat (h := h) (e := idx.2.toNat) (z := idx.1.toNat) (by omega) (by omega)
      rwa [Int.toNat_of_nonneg r3, Int.toNat_of_nonneg r1] at this
    rw [g]
    exact ih _

/-- A row without a number stays without one (helper). -/
theorem fillRow_nan (N step : ℕ) (hN : 0 < N) (hs : 0 < step) : fillRow (K := ℝ) N step (fun _ => none) = some fun _ => none := by
  unfold fillRow
  rw [writeAll N _ _ (fun z hz => ((mem_sampleIndices hs).1 hz).1), Option.bind_some]
  have e0 : (fun j => if j ∈ sampleIndices N step then none else none : ℕ → Option ℝ) = fun _ => none := by
    funext j; split <;> rfl
  rw [e0]
  have seg : ∀ last len (g : Option ℝ), last + len ≤ N → fillSegment N last len g (fun _ => none) = some fun _ => none := by
    intro last len g h
    rw [fillSegment_eq N last len h]
    congr 1
    funext j
    split <;> rfl
  split
  · have key : ∀ k, k < (N + step - 1) / step →
        loopM (fun (s : (ℕ → Option ℝ) × ℕ) z =>
          (fillSegment N s.2 step (nanGrad (s.1 s.2) (s.1 z) step) s.1).map fun r => (r, z))
          ((fun _ => none, 0) : (ℕ → Option ℝ) × ℕ) ((List.range' 1 k).map (· * step)) = some ((fun _ => none), k * step) := by
      intro k
      induction k with
      | zero => intro _; simp [loopM]
      | succ k ih =>
        intro hk
        have hlt : (k + 1) * step < N := by
          have : (k + 1) * step ∈ sampleIndices N step := List.mem_map.2 ⟨k + 1, List.mem_range.2 hk, rfl⟩
          exact ((mem_sampleIndices hs).1 this).1
        rw [List.range'_concat, List.map_append, loopM_append, ih (by omega), Option.bind_some]
        simp only [List.map_cons, List.map_nil, loopM]
        rw [seg _ _ _ (by rw [← Nat.succ_mul]; exact hlt.le)]
        simp only [Option.map_some, Option.bind_some]
        congr 2
        ring
    have hm : 0 < (N + step - 1) / step := Nat.div_pos (by omega) hs
    have et : (sampleIndices N step).tail = (List.range' 1 ((N + step - 1) / step - 1)).map (· * step) := by
      unfold sampleIndices
      rw [← List.map_tail, List.range_eq_range', List.tail_range']
    have hl := key ((N + step - 1) / step - 1) (by omega)
    rw [et, hl, Option.bind_some]
    dsimp only
    refine seg _ _ _ ?_
    have : ((N + step - 1) / step - 1) * step ∈ sampleIndices N step := List.mem_map.2 ⟨_, List.mem_range.2 (by omega), rfl⟩
    have := ((mem_sampleIndices hs).1 this).1
    omega
  · rfl

theorem fillMatrix_nan : fillMatrix 30 60 stepSize (fun _ _ => none) = some fun _ _ => none := by
  unfold fillMatrix
  have key : ∀ k ≤ 30, loopM (fun (m : ℕ → ℕ → Option ℝ) e => (fillRow 60 (stepSize e) (fun _ => none)).map fun r => Function.update m e r)
      (fun _ _ => none) (List.range k) = some fun _ _ => none := by
    intro k
    induction k with
    | zero => intro _; rfl
    | succ k ih =>
      intro hk
      rw [List.range_succ, loopM_append, ih (by omega), Option.bind_some]
      simp only [loopM]
      rw [fillRow_nan 60 (stepSize k) (by norm_num) (stepSize_pos k (by omega))]
      simp only [Option.map_some, Option.bind_some]
      congr 1
      funext e
      by_cases h : e = k
      · subst h; simp
      · simp [Function.update_of_ne h]
  exact key 30 le_rfl

/-- **C125 (violated: no direction has a cost).** When the height of the goal is open, the whole cost matrix is not a number,
whatever the obstacles, the parameters and the integers the undefined conversions give; no access is out of bounds. -/
theorem C125_no_cost_violated (conv : ℕ × ℕ → ℤ) (h : Histogram ℝ) (he : h.eDim = 30) (hz : h.zDim = 60) (gx gy : ℝ) (position velocity : V3 ℝ)
    (params : CostParams) (margin : ℝ) (hm : margin ≤ 180) (cx cy maxr minr : ℝ) :
    ∃ M, getCostMatrixOpen conv h gx gy none position velocity params margin cx cy maxr minr = some M ∧ ∀ e z, M e z = none := by
  obtain ⟨facing, hf⟩ := facingOpen_some conv h he hz gx gy position maxr minr
  have hdnn : ∀ d, 0 ≤ distanceCost params d := by
    intro d
    rcases le_or_gt d 0 with h0 | h0
    · rw [(C28_obstacle_cost params).1 d h0]
    · exact ((C28_obstacle_cost params).2.1 d h0).1.le
  obtain ⟨m2, b1, b2⟩ := fillMatrix_spec 30 60 (by norm_num) stepSize stepSize_pos
    (fun e z : ℕ => ((h.getDist e z).map fun d => costFunctionOpen (histogramIndexToPolar (K := ℝ) e z ALPHA_RES 1) d gx gy none position velocity params cx cy facing).map Prod.fst)
    (fun e z => distanceCost params (h.dist e z))
    (fun e h1 z h2 => by rw [getDist_nat (by omega) (by omega)]; rfl)
  have nn2 : withoutNaN 30 60 m2 = some fun e z => (m2 e z).getD 0 := by
    unfold withoutNaN; rw [if_pos]
    intro e h1 z h2; obtain ⟨v, hv, -⟩ := b2 e h1 z h2; rw [hv]; rfl
  have hn : ⌈margin / ((6 : ℕ) : ℝ)⌉.toNat ≤ 30 := by
    have : ⌈margin / ((6 : ℕ) : ℝ)⌉ ≤ 30 := Int.ceil_le.2 (by
      push_cast; rw [div_le_iff₀ (by norm_num)]; linarith)
    omega
  have hpos : ∀ e < 30, ∀ z < 60, 0 ≤ (m2 e z).getD 0 := by
    intro e h1 z h2
    obtain ⟨v, hv, -, hv3, -⟩ := b2 e h1 z h2
    rw [hv]
    exact (le_min (hdnn _) (hdnn _)).trans hv3
  obtain ⟨s, s1, s2⟩ := (C30_smoothing_consequences (K := ℝ) 30 60 ⌈margin / ((6 : ℕ) : ℝ)⌉.toNat
    (by norm_num) (by norm_num) hn (by omega)).1 (fun e z => (m2 e z).getD 0) hpos
  have e1 : (fun e z : ℕ => ((h.getDist e z).map fun d => costFunctionOpen (histogramIndexToPolar (K := ℝ) e z ALPHA_RES 1) d gx gy none position velocity params cx cy facing).bind Prod.snd) =
      fun _ _ => none := by
    funext e z
    cases h.getDist e z <;> rfl
  refine ⟨fun _ _ => none, ?_, fun _ _ => rfl⟩
  unfold getCostMatrixOpen
  rw [hf, Option.bind_some]
  dsimp only
  rw [e1, show GRID_LENGTH_E = 30 from rfl, show GRID_LENGTH_Z = 60 from rfl, fillMatrix_nan, Option.bind_some, b1, Option.bind_some, nn2,
    Option.bind_some, show (ALPHA_RES : ℕ) = 6 from rfl, s1]
  rfl

variable {Q : PriorityQueue OpenCandidate OpenCandidate.lt}

theorem offerOpen_nan (n : ℕ) (hn : 0 < n) (cs : List OpenCandidate) (hcs : ∀ c ∈ cs, c.cost = none) : ∀ q : Q.State, (Q.bag q).card ≤ n →
    ∃ q', loopM (offerOpen Q n) q cs = some q' ∧ Q.bag q' = Q.bag q + (cs.take (n - (Q.bag q).card) : Multiset OpenCandidate) := by
  induction cs with
  | nil => intro q _; exact ⟨q, rfl, by simp⟩
  | cons c cs ih =>
    intro q hq
    have ih := ih (fun d hd => hcs d (List.mem_cons_of_mem _ hd))
    have hc := hcs c (List.mem_cons_self ..)
    simp only [loopM]
    unfold offerOpen
    by_cases h : (Q.bag q).card < n
    · rw [if_pos h, Option.bind_some]
      have hb := Q.bag_push q c
      obtain ⟨q', h1, h2⟩ := ih (Q.push q c) (by rw [hb, Multiset.card_cons]; omega)
      refine ⟨q', h1, ?_⟩
      rw [h2, hb, Multiset.card_cons]
      obtain ⟨k, hk⟩ : ∃ k, n - (Q.bag q).card = k + 1 := ⟨n - (Q.bag q).card - 1, by omega⟩
      have hk' : n - ((Q.bag q).card + 1) = k := by omega
      rw [hk, hk', List.take_succ_cons, ← Multiset.cons_coe, Multiset.cons_add, Multiset.add_cons]
    · rw [if_neg h]
      have hne : Q.bag q ≠ 0 := by intro h0; rw [h0] at h; simp at h; omega
      obtain ⟨t, t1, -⟩ := Q.top_some q hne
      have hlt : ¬ OpenCandidate.lt c t := by rintro ⟨a, b, h1, -⟩; rw [hc] at h1; cases h1
      rw [t1, Option.bind_some, if_neg hlt, Option.bind_some]
      obtain ⟨q', h1, h2⟩ := ih q hq
      have h0 : n - (Q.bag q).card = 0 := by omega
      refine ⟨q', h1, ?_⟩
      rw [h2, h0]; simp

theorem drainOpen_bag (n : ℕ) : ∀ q : Q.State, (Q.bag q).card = n → ((drainOpen Q n q : List OpenCandidate) : Multiset OpenCandidate) = Q.bag q := by
  induction n with
  | zero => intro q h; simp [drainOpen, (Multiset.card_eq_zero.1 h)]
  | succ n ih =>
    intro q h
    have hne : Q.bag q ≠ 0 := by intro h0; rw [h0] at h; simp at h
    obtain ⟨m, m1, m2, m3, m4⟩ := Q.top_some q hne
    have i1 := ih (Q.pop q) (by rw [m4, Multiset.card_erase_of_mem m2, h]; rfl)
    have e : drainOpen Q (n + 1) q = m :: drainOpen Q n (Q.pop q) := by simp only [drainOpen, m1]
    rw [e, ← Multiset.cons_coe, i1, m4, Multiset.cons_erase m2]

/-- **C125 (violated: the candidates are those at the bottom).** Without costs the directions the planner goes on with are the first
ones of the matrix: for up to 60 children they all point 87 degrees downwards. -/
theorem C125_candidates_violated (Q : PriorityQueue OpenCandidate OpenCandidate.lt) (M : ℕ → ℕ → Option ℝ) (hM : ∀ e z, M e z = none)
    (n : ℕ) (hn : 0 < n) (hn' : n ≤ 60) :
    ∃ best, getBestOpen Q M GRID_LENGTH_E GRID_LENGTH_Z n = some best ∧
      best.Perm ((List.range n).map fun z : ℕ => (⟨none, -87, 6 * z - 177⟩ : OpenCandidate)) := by
  unfold getBestOpen
  obtain ⟨q, h1, h2⟩ := offerOpen_nan (Q := Q) n hn ((cellList (List.range GRID_LENGTH_E) GRID_LENGTH_Z).map (cellCandidateOpen M))
    (by
      intro c hc
      obtain ⟨⟨e, z⟩, -, rfl⟩ := List.mem_map.1 hc
      exact hM e z) Q.empty (by rw [Q.bag_empty]; simp)
  rw [h1]
  refine ⟨_, rfl, ?_⟩
  rw [Q.bag_empty, Multiset.card_zero, Nat.sub_zero, zero_add] at h2
  have h3 : ((cellList (List.range GRID_LENGTH_E) GRID_LENGTH_Z).map (cellCandidateOpen M)).take n =
      (List.range n).map fun z : ℕ => (⟨none, -87, 6 * z - 177⟩ : OpenCandidate) := by
    have e1 : cellList (List.range GRID_LENGTH_E) GRID_LENGTH_Z = (List.range 60).map (fun z => (0, z)) ++ cellList (List.range' 1 29) 60 := by
      unfold cellList
      rw [show GRID_LENGTH_E = 30 from rfl, show GRID_LENGTH_Z = 60 from rfl, show List.range 30 = 0 :: List.range' 1 29 from by decide, List.flatMap_cons]
    rw [e1, List.map_append, List.take_append_of_le_length (by simpa using hn'), List.map_map, ← List.map_take, List.take_range, min_eq_left hn']
    apply List.map_congr_left
    intro z _
    simp only [Function.comp]
    unfold cellCandidateOpen histogramIndexToPolar ALPHA_RES
    rw [hM]
    congr 1 <;> (push_cast; ring)
  rw [h3] at h2
  refine (List.reverse_perm _).trans (Multiset.coe_eq_coe.1 ?_)
  rw [drainOpen_bag _ q rfl, h2]

/-- A node of the tree that is one step of `d` from `p`, 87 degrees downwards (helper). -/
def DownNode (p : V3 ℝ) (d : ℝ) (a : TreeNode) : Prop :=
  a.total = none ∧ a.origin = 0 ∧ a.closed = false ∧ a.depth = 1 ∧ ∃ z < 60, a.pos = polarHistogramToCartesian ⟨-87, 6 * (z : ℕ) - 177, d⟩ p

theorem addOpen_down (cfg : StarConfig) (root : TreeNode) (hr : root.depth = 0) (cs : List OpenCandidate)
    (hcs : ∀ c ∈ cs, c.elevation = -87 ∧ ∃ z < 60, c.azimuth = 6 * (z : ℕ) - 177) :
    ∀ (l : List TreeNode) (k : ℕ), (∀ a ∈ l, DownNode root.pos cfg.tree_node_distance a) →
    ∃ l' k', loopM (addCandidateOpen cfg 0 root.pos) (root :: l, k) cs = some (root :: l', k') ∧
      (∀ a ∈ l', DownNode root.pos cfg.tree_node_distance a) ∧ (l ≠ [] → l' ≠ []) := by
  induction cs with
  | nil => exact fun l k h => ⟨l, k, rfl, h, id⟩
  | cons c cs ih =>
    intro l k h
    have ih := ih (fun d hd => hcs d (List.mem_cons_of_mem _ hd))
    obtain ⟨h1, z, h2, h3⟩ := hcs c (List.mem_cons_self ..)
    simp only [loopM]
    unfold addCandidateOpen
    dsimp only
    split_ifs
    · simp only [List.getElem?_cons_zero, Option.map_some, Option.bind_some, List.cons_append]
      obtain ⟨l', k', e1, e2, e3⟩ := ih (l ++ [⟨polarHistogramToCartesian ⟨c.elevation, c.azimuth, cfg.tree_node_distance⟩ root.pos,
        (polarHistogramToCartesian ⟨c.elevation, c.azimuth, cfg.tree_node_distance⟩ root.pos).minus root.pos, none, 0, 0, false, root.depth + 1⟩]) (k + 1)
        (by
          intro a ha
          rcases List.mem_append.1 ha with ha | ha
          · exact h a ha
          · rw [List.mem_singleton.1 ha]
            exact ⟨rfl, rfl, rfl, by rw [hr], z, h2, by rw [h1, h3]⟩)
      exact ⟨l', k', e1, e2, fun _ => e3 (by simp)⟩
    · exact ih l k h

theorem addOpen_first (cfg : StarConfig) (hch : 0 < cfg.children_per_node) (hd : 1 / 5 ≤ cfg.tree_node_distance) (root : TreeNode) (hr : root.depth = 0)
    (cs : List OpenCandidate) (hne : cs ≠ []) (hcs : ∀ c ∈ cs, c.elevation = -87 ∧ ∃ z < 60, c.azimuth = 6 * (z : ℕ) - 177) :
    ∃ l' k', loopM (addCandidateOpen cfg 0 root.pos) ([root], 0) cs = some (root :: l', k') ∧
      (∀ a ∈ l', DownNode root.pos cfg.tree_node_distance a) ∧ l' ≠ [] := by
  cases cs with
  | nil => exact absurd rfl hne
  | cons c cs =>
    obtain ⟨h1, z, h2, h3⟩ := hcs c (List.mem_cons_self ..)
    simp only [loopM]
    have hclose : hasCloseNode [root] (polarHistogramToCartesian ⟨c.elevation, c.azimuth, cfg.tree_node_distance⟩ root.pos) = false := by
      unfold hasCloseNode
      simp only [List.any_cons, List.any_nil, Bool.or_false, decide_eq_false_iff_not, not_lt]
      have := polar_step_norm c.elevation c.azimuth cfg.tree_node_distance root.pos
      have e : (root.pos.minus (polarHistogramToCartesian ⟨c.elevation, c.azimuth, cfg.tree_node_distance⟩ root.pos)).norm =
          ((polarHistogramToCartesian ⟨c.elevation, c.azimuth, cfg.tree_node_distance⟩ root.pos).minus root.pos).norm := by
        unfold V3.norm V3.dot V3.minus
        congr 1
        ring
      rw [e, this]
      exact hd.trans (le_abs_self _)
    have e : addCandidateOpen cfg 0 root.pos ([root], 0) c = some ([root, ⟨polarHistogramToCartesian ⟨c.elevation, c.azimuth, cfg.tree_node_distance⟩ root.pos,
        (polarHistogramToCartesian ⟨c.elevation, c.azimuth, cfg.tree_node_distance⟩ root.pos).minus root.pos, none, 0, 0, false, root.depth + 1⟩], 1) := by
      unfold addCandidateOpen
      dsimp only
      rw [if_pos ⟨hch, hclose⟩]
      rfl
    rw [e, Option.bind_some]
    obtain ⟨l', k', e1, e2, e3⟩ := addOpen_down cfg root hr cs (fun d hd => hcs d (List.mem_cons_of_mem _ hd))
      [(⟨polarHistogramToCartesian ⟨c.elevation, c.azimuth, cfg.tree_node_distance⟩ root.pos,
        (polarHistogramToCartesian ⟨c.elevation, c.azimuth, cfg.tree_node_distance⟩ root.pos).minus root.pos, none, 0, 0, false, root.depth + 1⟩ : TreeNode)] 1
      (by
        intro a ha
        rw [List.mem_singleton.1 ha]
        exact ⟨rfl, rfl, rfl, by rw [hr], z, h2, by rw [h1, h3]⟩)
    exact ⟨l', k', e1, e2, e3 (by simp)⟩

theorem pick_none (cfg : StarConfig) (l : List (TreeNode × ℕ)) (h : ∀ a ∈ l, a.1.total = none) (s : Option ℝ × ℕ × Bool) :
    l.foldl (pickStep cfg) s = s := by
  induction l with
  | nil => rfl
  | cons a l ih =>
    rw [List.foldl_cons]
    have : pickStep cfg s a = s := by
      unfold pickStep
      have h1 := h a (List.mem_cons_self ..)
      split
      · rfl
      · dsimp only; rw [h1]
    rw [this]
    exact ih (fun b hb => h b (List.mem_cons_of_mem _ hb))

theorem mem_zipIdx_fst {A : Type*} {l : List A} {k : ℕ} {a : A × ℕ} (h : a ∈ l.zipIdx k) : a.1 ∈ l := by
  obtain ⟨x, i⟩ := a
  exact List.fst_mem_of_mem_zipIdx h

/-- The tree after the only expansion (helper). -/
theorem tree_down (cfg : StarConfig) (p : V3 ℝ) (root : TreeNode) (hc : root.closed = true) (hp : root.pos = p) (l : List TreeNode)
    (hl : l ≠ []) (h : ∀ a ∈ l, DownNode p cfg.tree_node_distance a) :
    ∃ z < 60, (followParents (root :: l) (root :: l).length (deepestOpen (root :: l))).bind
      (fun i => (positionsOf (root :: l) i).map fun path => path) = some [polarHistogramToCartesian ⟨-87, 6 * (z : ℕ) - 177, cfg.tree_node_distance⟩ p, p] ∧
      deepestOpen (root :: l) = 1 := by
  cases l with
  | nil => exact absurd rfl hl
  | cons a l =>
    obtain ⟨a1, a2, a3, a4, z, a5, a6⟩ := h a (List.mem_cons_self ..)
    have hdeep : deepestOpen (root :: a :: l) = 1 := by
      unfold deepestOpen
      rw [List.zipIdx_cons, List.zipIdx_cons, List.foldl_cons, List.foldl_cons]
      have e1 : deepestStep (0, 0) (root, 0) = (0, 0) := by unfold deepestStep; rw [if_pos hc]
      have e2 : deepestStep (0, 0) (a, 0 + 1) = (1, 1) := by
        unfold deepestStep
        rw [if_neg (by rw [a3]; simp), if_pos (by rw [a4]; simp), a4]
      rw [e1, e2]
      have : ∀ (m : List (TreeNode × ℕ)), (∀ b ∈ m, b.1.depth = 1) → m.foldl deepestStep (1, 1) = (1, 1) := by
        intro m
        induction m with
        | nil => intro _; rfl
        | cons b m ih =>
          intro hm
          rw [List.foldl_cons]
          have : deepestStep (1, 1) b = (1, 1) := by
            unfold deepestStep
            rw [hm b (List.mem_cons_self ..)]
            simp
          rw [this]
          exact ih (fun c hc => hm c (List.mem_cons_of_mem _ hc))
      rw [this _ (fun b hb => (h b.1 (List.mem_cons_of_mem _ (mem_zipIdx_fst hb))).2.2.2.1)]
    refine ⟨z, a5, ?_, hdeep⟩
    rw [hdeep]
    simp only [List.length_cons, followParents, List.getElem?_cons_succ, List.getElem?_cons_zero, Option.bind_some, a2, Option.map_some]
    simp [positionsOf, loopM, a6, hp]

/-- **C125 (violated: the plan leads straight down).** When the height of the goal is open, every plan, whatever the obstacles, the
position, the velocity, the horizontal position of the goal and the parameters, is a single step from the vehicle, 87 degrees
downwards. -/
theorem C125_plan_down_violated (Q : PriorityQueue OpenCandidate OpenCandidate.lt) (conv : ℕ × ℕ → ℤ) (cfg : StarConfig)
    (hch : 0 < cfg.children_per_node) (hch' : cfg.children_per_node ≤ 60) (hn : 0 < cfg.n_expanded_nodes) (hd : 1 / 5 ≤ cfg.tree_node_distance)
    (cloud : List (AgedPoint ℝ)) (gx gy cx cy : ℝ) (params : CostParams) (margin : ℝ) (hm : margin ≤ 180) (maxr minr : ℝ) :
    ∃ r, ∃ z < 60, buildTreeOpen cfg (candidatesOpen Q conv cloud gx gy none cx cy params margin maxr minr cfg.children_per_node) = some r ∧
      r.path = [polarHistogramToCartesian ⟨-87, 6 * (z : ℕ) - 177, cfg.tree_node_distance⟩ cfg.position, cfg.position] := by
  obtain ⟨h, h1, h2, h3⟩ := newHistogram_dims cloud cfg.position
  obtain ⟨M, m1, m2⟩ := C125_no_cost_violated conv h h2 h3 gx gy cfg.position cfg.velocity params margin hm cx cy maxr minr
  obtain ⟨best, b1, b2⟩ := C125_candidates_violated Q M m2 cfg.children_per_node hch hch'
  have hcand : candidatesOpen Q conv cloud gx gy none cx cy params margin maxr minr cfg.children_per_node cfg.position cfg.velocity = some best := by
    unfold candidatesOpen
    rw [h1, Option.bind_some, m1, Option.bind_some, b1]
  generalize candidatesOpen Q conv cloud gx gy none cx cy params margin maxr minr cfg.children_per_node = cand at hcand
  have hbest : ∀ c ∈ best, c.elevation = -87 ∧ ∃ z < 60, c.azimuth = 6 * (z : ℕ) - 177 := by
    intro c hc
    obtain ⟨z, hz, rfl⟩ := List.mem_map.1 (b2.mem_iff.1 hc)
    exact ⟨rfl, z, lt_of_lt_of_le (List.mem_range.1 hz) hch', rfl⟩
  have hne : best ≠ [] := by
    intro h0
    have := b2.length_eq
    rw [h0] at this
    simp at this
    omega
  obtain ⟨l, k, l1, l2, l3⟩ := addOpen_first cfg hch hd ⟨cfg.position, cfg.velocity, none, 0, 0, false, 0⟩ rfl best hne hbest
  have hexp : expandNodeOpen cfg cand [⟨cfg.position, cfg.velocity, none, 0, 0, false, 0⟩] 0 =
      some (⟨cfg.position, cfg.velocity, none, 0, 0, true, 0⟩ :: l) := by
    unfold expandNodeOpen
    simp only [List.getElem?_cons_zero, Option.bind_some]
    rw [hcand, Option.bind_some, if_neg hne]
    dsimp only at l1
    rw [l1]
    rfl
  obtain ⟨n, hn'⟩ : ∃ n, cfg.n_expanded_nodes = n + 1 := ⟨cfg.n_expanded_nodes - 1, by omega⟩
  have hgrow : growTreeOpen cfg cand cfg.n_expanded_nodes [⟨cfg.position, cfg.velocity, none, 0, 0, false, 0⟩] [] 0 =
      some (⟨cfg.position, cfg.velocity, none, 0, 0, true, 0⟩ :: l, [0]) := by
    rw [hn']
    unfold growTreeOpen
    rw [hexp, Option.bind_some]
    have hp : pickNext cfg (⟨cfg.position, cfg.velocity, none, 0, 0, true, 0⟩ :: l) 0 = (0, false) := by
      unfold pickNext
      rw [pick_none]
      intro a ha
      rcases List.mem_cons.1 (mem_zipIdx_fst ha) with e | e
      · rw [e]
      · exact (l2 _ e).1
    rw [hp]
    rfl
  obtain ⟨z, z1, z2, -⟩ := tree_down cfg cfg.position ⟨cfg.position, cfg.velocity, none, 0, 0, true, 0⟩ rfl rfl l l3 l2
  unfold buildTreeOpen
  rw [hgrow, Option.bind_some]
  dsimp only
  obtain ⟨i, i1, i2⟩ := Option.bind_eq_some_iff.1 z2
  obtain ⟨path, p1, p2⟩ := Option.map_eq_some_iff.1 i2
  rw [i1, Option.bind_some, p1]
  exact ⟨_, z, z1, rfl, p2⟩

/-- **C125 (violated: the setpoint on such a plan).** Whenever it is asked for, the point on that plan is its end, almost the whole
step below the position the plan was made at. -/
theorem C125_setpoint_below_violated (p : V3 ℝ) (d : ℝ) (hd : 0 < d) (z : ℕ) (elapsed velocity : ℝ) :
    ∃ s, getSetpointFromPath [polarHistogramToCartesian ⟨-87, 6 * (z : ℕ) - 177, d⟩ p, p] elapsed velocity = some (true, some s) ∧
      s.z < p.z - 99 / 100 * d ∧ (s.x - p.x) ^ 2 + (s.y - p.y) ^ 2 < (d / 18) ^ 2 := by
  refine ⟨polarHistogramToCartesian ⟨-87, 6 * (z : ℕ) - 177, d⟩ p, by simp [getSetpointFromPath], ?_⟩
  have e1 : ((-87 : ℝ) * degToRad) = -(Real.pi / 2 - Real.pi / 60) := by unfold degToRad; ring
  have hpi := Real.pi_gt_three
  have hpi' : Real.pi < 3.15 := Real.pi_lt_d2
  have hs : Real.sin ((-87 : ℝ) * degToRad) = -Real.cos (Real.pi / 60) := by rw [e1, Real.sin_neg, Real.sin_pi_div_two_sub]
  have hc : Real.cos ((-87 : ℝ) * degToRad) = Real.sin (Real.pi / 60) := by rw [e1, Real.cos_neg, Real.cos_pi_div_two_sub]
  have hsmall : Real.sin (Real.pi / 60) < Real.pi / 60 := Real.sin_lt (by positivity)
  have hpos : 0 < Real.sin (Real.pi / 60) := Real.sin_pos_of_pos_of_lt_pi (by positivity) (by linarith)
  have hcos : 99 / 100 < Real.cos (Real.pi / 60) := by
    have := Real.one_sub_sq_div_two_le_cos (x := Real.pi / 60)
    nlinarith
  unfold polarHistogramToCartesian
  dsimp only
  rw [hs, hc]
  constructor
  · nlinarith
  · have h1 := Real.sin_sq_add_cos_sq ((6 * (z : ℝ) - 177) * degToRad)
    have : (p.x + d * Real.sin (Real.pi / 60) * Real.sin ((6 * (z : ℝ) - 177) * degToRad) - p.x) ^ 2 +
        (p.y + d * Real.sin (Real.pi / 60) * Real.cos ((6 * (z : ℝ) - 177) * degToRad) - p.y) ^ 2 = (d * Real.sin (Real.pi / 60)) ^ 2 := by
      have : (p.x + d * Real.sin (Real.pi / 60) * Real.sin ((6 * (z : ℝ) - 177) * degToRad) - p.x) ^ 2 +
        (p.y + d * Real.sin (Real.pi / 60) * Real.cos ((6 * (z : ℝ) - 177) * degToRad) - p.y) ^ 2 = (d * Real.sin (Real.pi / 60)) ^ 2 *
        (Real.sin ((6 * (z : ℝ) - 177) * degToRad) ^ 2 + Real.cos ((6 * (z : ℝ) - 177) * degToRad) ^ 2) := by ring
      rw [this, h1, mul_one]
    rw [this]
    have h2 : d * Real.sin (Real.pi / 60) < d / 18 := by nlinarith
    have h3 : 0 < d * Real.sin (Real.pi / 60) := by positivity
    nlinarith

/-- **C125 (violated: what is flown).** Planning and following the plan together: whatever obstacles there are and wherever the goal is
horizontally, whenever it is asked for, the setpoint of the plan is nearly a whole step below the vehicle, and its horizontal
distance from the vehicle is less than an eighteenth of the step. -/
theorem C125_flight_down_violated (Q : PriorityQueue OpenCandidate OpenCandidate.lt) (conv : ℕ × ℕ → ℤ) (cfg : StarConfig)
    (hch : 0 < cfg.children_per_node) (hch' : cfg.children_per_node ≤ 60) (hn : 0 < cfg.n_expanded_nodes) (hd : 1 / 5 ≤ cfg.tree_node_distance)
    (cloud : List (AgedPoint ℝ)) (gx gy cx cy : ℝ) (params : CostParams) (margin : ℝ) (hm : margin ≤ 180) (maxr minr elapsed velocity : ℝ) :
    ∃ r s, buildTreeOpen cfg (candidatesOpen Q conv cloud gx gy none cx cy params margin maxr minr cfg.children_per_node) = some r ∧
      getSetpointFromPath r.path elapsed velocity = some (true, some s) ∧
      s.z < cfg.position.z - 99 / 100 * cfg.tree_node_distance ∧
      (s.x - cfg.position.x) ^ 2 + (s.y - cfg.position.y) ^ 2 < (cfg.tree_node_distance / 18) ^ 2 := by
  obtain ⟨r, z, -, h1, h2⟩ := C125_plan_down_violated Q conv cfg hch hch' hn hd cloud gx gy cx cy params margin hm maxr minr
  obtain ⟨s, s1, s2⟩ := C125_setpoint_below_violated cfg.position cfg.tree_node_distance (by linarith) z elapsed velocity
  exact ⟨r, s, h1, by rw [h2]; exact s1, s2⟩

/-- Any finite bag of candidates has a largest one, also with costs that are not a number (helper). -/
theorem exists_top (s : Multiset OpenCandidate) (h : s ≠ 0) : ∃ m ∈ s, ∀ x ∈ s, ¬ OpenCandidate.lt m x := by
  have irr : ∀ x, ¬ OpenCandidate.lt x x := by
    rintro x ⟨a, b, h1, h2, h3⟩
    rw [h1] at h2
    rw [Option.some.inj h2] at h3
    exact lt_irrefl _ h3
  have tr : ∀ x y z, OpenCandidate.lt x y → OpenCandidate.lt y z → OpenCandidate.lt x z := by
    rintro x y z ⟨a, b, h1, h2, h3⟩ ⟨a', b', h4, h5, h6⟩
    rw [h2] at h4
    rw [← Option.some.inj h4] at h6
    exact ⟨a, b', h1, h5, h3.trans h6⟩
  induction s using Multiset.induction with
  | empty => exact absurd rfl h
  | cons a s ih =>
    by_cases h0 : s = 0
    · subst h0
      refine ⟨a, by simp, fun x hx => ?_⟩
      have : x = a := by simpa using hx
      rw [this]
      exact irr a
    · obtain ⟨m, m1, m2⟩ := ih h0
      by_cases hl : OpenCandidate.lt m a
      · refine ⟨a, by simp, fun x hx => ?_⟩
        rcases Multiset.mem_cons.1 hx with rfl | hx
        · exact irr _
        · exact fun hax => m2 x hx (tr _ _ _ hl hax)
      · refine ⟨m, Multiset.mem_cons_of_mem m1, fun x hx => ?_⟩
        rcases Multiset.mem_cons.1 hx with rfl | hx
        · exact hl
        · exact m2 x hx

/-- A priority queue of candidates whose costs may be NaN: the hypotheses of the theorems are met. -/
def openQueue : PriorityQueue OpenCandidate OpenCandidate.lt where
  State := Multiset OpenCandidate
  empty := 0
  push s a := a ::ₘ s
  pop s := if h : s = 0 then 0 else s.erase (exists_top s h).choose
  top s := if h : s = 0 then none else some (exists_top s h).choose
  bag s := s
  bag_empty := rfl
  bag_push _ _ := rfl
  top_none s h := by rw [dif_pos h]
  top_some s h := by
    rw [dif_neg h, dif_neg h]
    exact ⟨_, rfl, (exists_top s h).choose_spec.1, (exists_top s h).choose_spec.2, rfl⟩

/-- With 8 children, 10 expansions and steps of 2 m, two points five metres ahead and a goal ten metres ahead: the setpoint is at least
1.98 m below the vehicle, 11 cm to the side at most. -/
example : ∃ r s, buildTreeOpen ⟨8, 10, 2, 4, 35, ⟨10, 0, 0⟩, ⟨0, 0, 3⟩, ⟨1, 0, 0⟩⟩
      (candidatesOpen openQueue (fun _ => -2147483648) [⟨⟨5, 0, 3⟩, 0⟩, ⟨⟨5, 0, 4⟩, 0⟩] 10 0 none 0 0 ⟨1, 1, 1, 1⟩ 40 15 (1 / 5) 8) = some r ∧
    getSetpointFromPath r.path 1 1 = some (true, some s) ∧ s.z < 51 / 50 ∧ s.x ^ 2 + s.y ^ 2 < 1 / 81 := by
  obtain ⟨r, s, h1, h2, h3, h4⟩ := C125_flight_down_violated openQueue (fun _ => -2147483648)
    ⟨8, 10, 2, 4, 35, ⟨10, 0, 0⟩, ⟨0, 0, 3⟩, ⟨1, 0, 0⟩⟩ (by norm_num) (by norm_num) (by norm_num) (by norm_num)
    [⟨⟨5, 0, 3⟩, 0⟩, ⟨⟨5, 0, 4⟩, 0⟩] 10 0 0 0 ⟨1, 1, 1, 1⟩ 40 (by norm_num) 15 (1 / 5) 1 1
  refine ⟨r, s, h1, h2, by norm_num at h3 ⊢; exact h3, by norm_num at h4 ⊢; exact h4⟩

end
end Avoidance
