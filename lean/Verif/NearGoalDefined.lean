import Verif.RunDefinedProps
import Mathlib.Topology.Algebra.Module.Cardinality

/-!
# Planning close to the goal is defined (C35, C86)

`C35_defined` and `C86_run_defined` ask for a goal beyond the sensor range. Here the goal may be anywhere but at one of the places the look-ahead tree can visit.
-/

namespace Avoidance

variable {Q : PriorityQueue (Candidate ℝ) Candidate.lt}

noncomputable section

/-! ## Specification -/

/-- The places a tree with steps of length `d` from `p` in the directions of the grid of 30 × 60 directions can visit. -/
inductive Place (d : ℝ) (p : V3 ℝ) : V3 ℝ → Prop where
  | start : Place d p p
  | step (q : V3 ℝ) (e z : ℕ) : Place d p q → e < 30 → z < 60 → Place d p (polarHistogramToCartesian ⟨6 * e - 87, 6 * z - 177, d⟩ q)

/-- The goal is at none of the places the tree visits to plan on from there: the vehicle, and places closer to it than `r`. -/
def GoalOffTree (d r : ℝ) (p goal : V3 ℝ) : Prop := goal ≠ p ∧ ∀ q, Place d p q → (q.minus p).norm < r → goal ≠ q

/-! ## The tree -/

/-- The tree can only fail at one of its nodes. -/
theorem growTree_fails {cfg : StarConfig} {candidates : V3 ℝ → V3 ℝ → Option (List (Candidate ℝ))} :
    ∀ (n : ℕ) (tree : List TreeNode) (closed_set : List ℕ) (origin : ℕ) (o : TreeNode),
    TreeInv cfg candidates closed_set tree → ClosedInv cfg closed_set tree → tree[origin]? = some o →
    o.closed = false → (0 < origin → (o.pos.minus cfg.position).norm < cfg.max_path_length) →
    growTree cfg candidates n tree closed_set origin = none →
    ∃ (tree' : List TreeNode) (closed' : List ℕ) (i : ℕ) (o' : TreeNode), TreeInv cfg candidates closed' tree' ∧ tree'[i]? = some o' ∧ candidates o'.pos o'.vel = none ∧
      (0 < i → (o'.pos.minus cfg.position).norm < cfg.max_path_length) := by
  intro n
  induction n with
  | zero =>
    intro tree closed_set origin o h1 h2 h3 h4 h5 h6
    cases h6
  | succ n ih =>
    intro tree closed_set origin o h1 h2 h3 h4 h5 h6
    rcases hcs : candidates o.pos o.vel with _ | cs
    · exact ⟨tree, closed_set, origin, o, h1, h3, hcs, h5⟩
    obtain ⟨tree1, e1, e2, e3⟩ := expandNode_inv h1 h2 h3 h4 h5 hcs
    rw [growTree, e1, Option.bind_some] at h6
    dsimp only at h6
    rcases C35_next_is_cheapest cfg tree1 origin with ⟨p1, m, t, p2, p3, -⟩ | ⟨p1, p2⟩
    · rw [p1, if_pos rfl] at h6
      exact ih tree1 (closed_set ++ [origin]) _ m e2 e3 p2 p3.1 (fun _ => p3.2.2) h6
    · rw [p1, if_neg (by simp)] at h6
      cases h6

/-- The candidate directions are directions of the grid. -/
theorem candidatesAt_grid (cloud : List (AgedPoint ℝ)) (goal closest : V3 ℝ) (params : CostParams) (margin maxr minr : ℝ) (children : ℕ) (hch : 0 < children) (p v : V3 ℝ)
    (cs : List (Candidate ℝ)) (h : candidatesAt Q cloud goal closest params margin maxr minr children p v = some cs) (c : Candidate ℝ) (hc : c ∈ cs) :
    ∃ e z : ℕ, e < 30 ∧ z < 60 ∧ c.elevation = 6 * e - 87 ∧ c.azimuth = 6 * z - 177 := by
  unfold candidatesAt at h
  obtain ⟨hh, -, h⟩ := Option.bind_eq_some_iff.mp h
  obtain ⟨M, -, h⟩ := Option.bind_eq_some_iff.mp h
  obtain ⟨best, b1, b2⟩ := C27_best_candidates Q M GRID_LENGTH_E GRID_LENGTH_Z children hch
  rw [b1] at h
  obtain rfl := Option.some.inj h
  have : c ∈ allCandidates M GRID_LENGTH_E GRID_LENGTH_Z := by
    obtain ⟨-, -, rest, hr, -⟩ := b2
    have := hr.subset (List.mem_append_left _ hc)
    exact this
  unfold allCandidates at this
  simp only [List.mem_flatMap, List.mem_map, List.mem_range] at this
  obtain ⟨e, he, z, hz, rfl⟩ := this
  refine ⟨e, z, he, hz, ?_, ?_⟩
  · unfold histogramIndexToPolar; dsimp only; push_cast; ring
  · unfold histogramIndexToPolar; dsimp only; push_cast; ring

/-- All nodes are at places. -/
theorem tree_places (cfg : StarConfig) (cloud : List (AgedPoint ℝ)) (goal closest : V3 ℝ) (params : CostParams) (margin maxr minr : ℝ) (children : ℕ) (hch : 0 < children)
    (closed : List ℕ) (tree : List TreeNode) (h : TreeInv cfg (candidatesAt Q cloud goal closest params margin maxr minr children) closed tree) :
    ∀ (i : ℕ) (o : TreeNode), tree[i]? = some o → Place cfg.tree_node_distance cfg.position o.pos := by
  intro i
  induction i using Nat.strong_induction_on with
  | _ i ih =>
    intro o ho
    rcases Nat.eq_zero_or_pos i with rfl | hpos
    · obtain ⟨r, r1, r2, -⟩ := h.root
      rw [ho] at r1
      obtain rfl := Option.some.inj r1
      rw [r2]; exact .start
    · obtain ⟨k1, -, y, y1, y2⟩ := h.parent i o hpos ho
      obtain ⟨cs, c, c1, c2, c3, -⟩ := y2.candidate
      obtain ⟨e, z, he, hz, e1, e2⟩ := candidatesAt_grid cloud goal closest params margin maxr minr children hch _ _ cs c1 c c2
      rw [c3, e1, e2]
      exact .step _ e z (ih _ k1 y y1) he hz

/-- **C35, no failure, near the goal too.** With at least one child per node, a smoothing margin of at most 180° and weights that are not negative, the planner makes no out-of-bounds access, its loops end
and every cost is finite, wherever the goal is, unless it is exactly at one of the places the tree can plan on from. -/
theorem C35_defined_near (cfg : StarConfig) (cloud : List (AgedPoint ℝ)) (closest_pt : V3 ℝ) (params : CostParams)
    (margin max_range min_range : ℝ) (p1 : 0 ≤ params.yaw) (p2 : 0 ≤ params.pitch) (p3 : 0 ≤ params.velocity) (hm : margin ≤ 180) (hch : 0 < cfg.children_per_node)
    (hgoal : GoalOffTree cfg.tree_node_distance cfg.max_path_length cfg.position cfg.goal) :
    ∃ r, buildLookAheadTree cfg (candidatesAt Q cloud cfg.goal closest_pt params margin max_range min_range cfg.children_per_node) = some r := by
  rcases build_cases cfg (candidatesAt Q cloud cfg.goal closest_pt params margin max_range
    min_range cfg.children_per_node) with ⟨r, n, h, -⟩ | ⟨h, -⟩
  · exact ⟨r, h⟩
  exfalso
  have hgrow : growTree cfg (candidatesAt Q cloud cfg.goal closest_pt params margin max_range min_range cfg.children_per_node) cfg.n_expanded_nodes [rootNode cfg] [] 0 = none := by
    rcases growTree_inv (cfg := cfg) (candidates := candidatesAt Q cloud cfg.goal closest_pt params margin max_range min_range cfg.children_per_node) cfg.n_expanded_nodes [rootNode cfg] [] 0 (rootNode cfg)
      (root_inv (candidates := candidatesAt Q cloud cfg.goal closest_pt params margin max_range min_range cfg.children_per_node)).1
      (root_inv (candidates := candidatesAt Q cloud cfg.goal closest_pt params margin max_range min_range cfg.children_per_node)).2 (by simp) rfl (by omega) with ⟨tree, closed, g1, g2, -⟩ | ⟨g1, -⟩
    · exfalso
      rcases build_cases cfg (candidatesAt Q cloud cfg.goal closest_pt params margin max_range min_range cfg.children_per_node) with ⟨r, n, h', -⟩ | ⟨-, hx⟩
      · rw [h] at h'; cases h'
      unfold buildLookAheadTree at h
      rw [g1, Option.bind_some] at h
      dsimp only at h
      have hd : ∃ n, tree[deepestOpen tree]? = some n := by
        unfold deepestOpen
        rcases (deepest_fold tree).1 with h | ⟨n, h, -⟩
        · obtain ⟨r, r1, -⟩ := g2.root
          exact ⟨r, by rw [h]; exact r1⟩
        · exact ⟨n, h⟩
      obtain ⟨n, hn⟩ := hd
      obtain ⟨l, l1, l2, l3, l4, l5, l6⟩ := followParents_spec g2 (deepestOpen tree) tree.length n
        (lt_of_getElem?_some hn).le hn
      obtain ⟨ps, p1, p2, p3⟩ := positionsOf_spec tree l l5
      rw [l1, Option.bind_some, p1] at h
      cases h
    · exact g1
  obtain ⟨tree, closed, i, o, t1, t2, t3, t4⟩ := growTree_fails cfg.n_expanded_nodes [rootNode cfg] [] 0 (rootNode cfg)
    (root_inv (candidates := candidatesAt Q cloud cfg.goal closest_pt params margin max_range min_range cfg.children_per_node)).1
    (root_inv (candidates := candidatesAt Q cloud cfg.goal closest_pt params margin max_range min_range cfg.children_per_node)).2 (by simp) rfl (by omega) hgrow
  have hne : cfg.goal ≠ o.pos := by
    rcases Nat.eq_zero_or_pos i with rfl | hpos
    · obtain ⟨r, r1, r2, -⟩ := t1.root
      rw [t2] at r1
      obtain rfl := Option.some.inj r1
      rw [r2]; exact hgoal.1
    · exact hgoal.2 _ (tree_places cfg cloud cfg.goal closest_pt params margin max_range min_range _ hch closed tree t1 i o t2) (t4 hpos)
  unfold candidatesAt at t3
  obtain ⟨h', q1, q3, q4⟩ := newHistogram_dims cloud o.pos
  rw [q1, Option.bind_some] at t3
  obtain ⟨M, m1, -⟩ := C29_cost_matrix h' q3 q4 cfg.goal o.pos o.vel params margin closest_pt max_range min_range hne p1 p2 p3 hm
  rw [m1, Option.bind_some] at t3
  obtain ⟨best, b1, -⟩ := C27_best_candidates Q M GRID_LENGTH_E GRID_LENGTH_Z cfg.children_per_node hch
  rw [b1] at t3
  cases t3

/-! ## How rare the exceptions are -/

/-- The place reached by a list of directions. -/
def placeOf (d : ℝ) (p : V3 ℝ) (l : List (ℕ × ℕ)) : V3 ℝ := l.foldl (fun q ez => polarHistogramToCartesian ⟨6 * (ez.1 : ℝ) - 87, 6 * (ez.2 : ℝ) - 177, d⟩ q) p

theorem Place.of_list {d : ℝ} {p q : V3 ℝ} (h : Place d p q) : ∃ l, placeOf d p l = q := by
  induction h with
  | start => exact ⟨[], rfl⟩
  | step q e z _ _ _ ih =>
    obtain ⟨l, rfl⟩ := ih
    exact ⟨l ++ [(e, z)], by unfold placeOf; rw [List.foldl_append]; rfl⟩

/-- **C35.** Only countably many goals are exceptions. -/
theorem C35_exceptions_countable (d r : ℝ) (p : V3 ℝ) : {goal : V3 ℝ | ¬ GoalOffTree d r p goal}.Countable := by
  refine (Set.countable_range (placeOf d p)).mono ?_
  intro g hg
  by_contra hn
  refine hg ⟨?_, ?_⟩
  · rintro rfl; exact hn ⟨[], rfl⟩
  · rintro q hq - rfl
    exact hn hq.of_list

/-- A goal beyond the range is off the tree: the hypothesis of `C35_defined`. -/
theorem GoalOffTree.of_far {d r : ℝ} {p goal : V3 ℝ} (h : goal ≠ p) (hr : r ≤ (goal.minus p).norm) : GoalOffTree d r p goal := by
  refine ⟨h, ?_⟩
  rintro q - hq rfl
  linarith

/-! ## C86 -/

/-- **C86, no undefined behaviour, near the goal too.** As `C86_run_defined`, but the goal may be as close as it likes: it must only not be exactly at one of the places the look-ahead tree can plan on from. -/
theorem C86_run_defined_near (es : List LpEvent) (now : ℝ) (s : LPlanner) (h : loopM (lpStep Q) lpInit es = some s) (c : LpConfig)
    (hc : lastConfig es = some c) (p v : V3 ℝ) (q : Quat ℝ) (hs : lastState es = some (p, v, q)) (hg : GoalApplied es)
    (hcl : lastClouds es ≠ []) (h1 : 0 < c.children_per_node) (h2 : 0 ≤ c.cost.yaw) (h3 : 0 ≤ c.cost.pitch)
    (h4 : 0 ≤ c.cost.velocity) (h5 : c.smoothing_margin ≤ 180) (h6 : GoalOffTree c.tree_node_distance c.max_sensor_range p (goalAfter es)) :
    ∃ s', lpStep Q s (.run now) = some s' := by
  have k := knows es s h
  obtain ⟨k1, k2, -, -, k5⟩ := k.state p v q hs
  have kc := k.config c hc
  have hcl' : s.clouds ≠ [] := by rw [clouds_known es s h]; exact hcl
  show ∃ s', s.run Q now = some s'
  unfold LPlanner.run
  have hp : ∃ out, processPointcloud (s.cloudParams now) s.cloud s.clouds = some out := by
    unfold processPointcloud
    dsimp only
    rw [if_neg hcl']
    exact ⟨_, rfl⟩
  obtain ⟨out, ho⟩ := hp
  rw [ho, Option.bind_some]
  unfold LPlanner.determineStrategy
  obtain ⟨hh, e1, d1, d2⟩ := newHistogram_dims out s.position
  have hcr : ∃ d, (({ s with cloud := out, last_process_time := now } : LPlanner).create2D ((Flt.fin 0).lt s.px4.cp_dist)) =
      some { s with cloud := out, last_process_time := now, histogram := hh, distances := d } := by
    unfold LPlanner.create2D
    dsimp only
    rw [e1, Option.bind_some]
    by_cases hcp : (Flt.fin 0).lt s.px4.cp_dist = true
    · rw [if_pos hcp]
      obtain ⟨comp, c1, c2, c3⟩ := compress_dims hh d1 d2 s.position
      obtain ⟨r, r1, -⟩ := C32_obstacle_distances comp c2 c3 s.fovs s.position s.yaw_deg s.min_sensor_range s.max_sensor_range
      rw [c1, Option.bind_some, r1]
      exact ⟨_, rfl⟩
    · rw [if_neg hcp]
      exact ⟨_, rfl⟩
  obtain ⟨d, hd⟩ := hcr
  dsimp only at hd ⊢
  rw [hd, Option.bind_some]
  dsimp only
  by_cases hem : (!hh.isEmpty fltMin) = true
  · rw [if_pos hem]
    obtain ⟨M, hM, -⟩ := C29_cost_matrix hh d1 d2 s.goal s.position s.velocity s.cost s.smoothing_margin
      (closestPoint s.goal s.prev_goal s.position s.px4.xy_cruise) s.max_sensor_range s.min_sensor_range
      (by rw [k.goal, k1]; exact h6.1) (by rw [kc.p3]; exact h2) (by rw [kc.p3]; exact h3) (by rw [kc.p3]; exact h4)
      (by rw [kc.p6]; exact h5)
    rw [hM, Option.bind_some]
    unfold Star.build
    dsimp only
    rw [k.starGoal hg, Option.bind_some, k5, Option.bind_some, Option.bind_some]
    obtain ⟨r, hr⟩ := C35_defined_near (Q := Q) ⟨s.star.children_per_node, s.star.n_expanded_nodes, s.star.tree_node_distance,
      s.star.max_path_length, s.star.tree_heuristic_weight, s.goal, p, v⟩ out
      (closestPoint s.goal s.prev_goal s.position s.px4.xy_cruise) s.cost s.star.smoothing_margin s.star.max_sensor_range
      s.star.min_sensor_range (by rw [kc.p3]; exact h2) (by rw [kc.p3]; exact h3) (by rw [kc.p3]; exact h4)
      (by rw [kc.q5]; exact h5) (by dsimp only; rw [kc.q1]; exact h1) (by dsimp only; rw [kc.q3, kc.q4, k.goal]; exact h6)
    rw [hr]
    exact ⟨_, rfl⟩
  · rw [if_neg hem]
    exact ⟨_, rfl⟩

/-! ## Examples -/

/-- Arbitrarily close to the vehicle there are goals off the tree, in every horizontal direction: the hypothesis of the theorems is met near the goal. -/
theorem off_tree_exists (d r ε : ℝ) (hε : 0 < ε) (p : V3 ℝ) : ∃ t : ℝ, 0 < t ∧ t < ε ∧ GoalOffTree d r p ⟨p.x + t, p.y, p.z⟩ := by
  have hc : {t : ℝ | ¬ GoalOffTree d r p ⟨p.x + t, p.y, p.z⟩}.Countable := by
    refine (C35_exceptions_countable d r p).preimage_of_injOn (f := fun t : ℝ => (⟨p.x + t, p.y, p.z⟩ : V3 ℝ)) ?_
    intro a _ b _ hab
    have := congrArg V3.x hab
    dsimp only at this
    linarith
  obtain ⟨t, ht, h1⟩ := (hc.dense_compl ℝ).exists_mem_open isOpen_Ioo (⟨ε / 2, by constructor <;> linarith⟩ : (Set.Ioo 0 ε).Nonempty)
  exact ⟨t, h1.1, h1.2, not_not.mp ht⟩

/-- The parameters as delivered and a goal less than half a metre away. -/
example : ∃ t : ℝ, 0 < t ∧ t < 1 / 2 ∧ ∃ r, buildLookAheadTree ⟨8, 40, 2, 15, 35, ⟨0 + t, 0, 3⟩, ⟨0, 0, 3⟩, ⟨1, 0, 0⟩⟩
    (candidatesAt (sortedQueueOf ℝ) [⟨⟨5, 1, 3⟩, 0⟩] ⟨0 + t, 0, 3⟩ ⟨0, 0, 3⟩ ⟨3, 25, 6000, 17⟩ 40 15 (1 / 5) 8) = some r := by
  obtain ⟨t, h1, h2, h3⟩ := off_tree_exists 2 15 (1 / 2) (by norm_num) ⟨0, 0, 3⟩
  exact ⟨t, h1, h2, C35_defined_near (Q := sortedQueueOf ℝ) ⟨8, 40, 2, 15, 35, ⟨0 + t, 0, 3⟩, ⟨0, 0, 3⟩, ⟨1, 0, 0⟩⟩ _ _ _ _ _ _ (by norm_num) (by norm_num) (by norm_num) (by norm_num) (by norm_num) h3⟩

end
end Avoidance
