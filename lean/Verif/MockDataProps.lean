import Verif.MockData
import Mathlib.Tactic.Linarith
import Mathlib.Tactic.Ring
import Mathlib.Tactic.NormNum
import Mathlib.Algebra.Order.Field.Basic
import Mathlib.Data.List.Nodup

/-!
# The simulated wall (C117)
-/

namespace Avoidance.Global
variable {K : Type*} [Field K] [LinearOrder K] [IsStrictOrderedRing K]

/-- The centres of the cells of a wall: `dist` cells away along x, `width` cells to either side, up to `height` cells high. -/
def OnWall (dist width height : ℤ) (p : V3 K) : Prop :=
  ∃ i j : ℤ, -width ≤ i ∧ i ≤ width ∧ 0 ≤ j ∧ j ≤ height ∧ p = ⟨dist + 1 / 2, i + 1 / 2, j + 1 / 2⟩

theorem loop_snoc {S A : Type*} (f : S → A → Option S) (l : List A) (a : A) : ∀ s, loopM f s (l ++ [a]) = (loopM f s l).bind fun t => f t a := by
  induction l with
  | nil => intro s; show (f s a).bind (fun t => some t) = f s a; cases f s a <;> rfl
  | cons b l ih =>
    intro s
    show (f s b).bind (fun t => loopM f t (l ++ [a])) = ((f s b).bind fun t => loopM f t l).bind _
    cases f s b with
    | none => rfl
    | some t => exact ih t

theorem mem_intsTo {a b i : ℤ} : i ∈ intsTo a b ↔ a ≤ i ∧ i ≤ b := by
  unfold intsTo
  rw [List.mem_map]
  constructor
  · rintro ⟨k, hk, rfl⟩
    rw [List.mem_range] at hk
    omega
  · rintro ⟨h1, h2⟩
    exact ⟨(i - a).toNat, by rw [List.mem_range]; omega, by omega⟩

theorem intsTo_nodup (a b : ℤ) : (intsTo a b).Nodup := by
  unfold intsTo
  exact List.Nodup.map (fun x y h => by simpa using h) List.nodup_range

theorem intsTo_length (a b : ℤ) : (intsTo a b).length = (b + 1 - a).toNat := by simp [intsTo]

/-- The points of the wall in the order in which they are made. -/
def wallCells (width height : ℤ) : List (ℤ × ℤ) := (intsTo (-width) width).flatMap fun i => (intsTo 0 height).map fun j => (i, j)

def wallPoint (dist : ℤ) (c : ℤ × ℤ) : V3 K := ⟨(dist : K) + 1 / 2, (c.1 : K) + 1 / 2, (c.2 : K) + 1 / 2⟩

theorem wall_flat (d w h : ℤ) : (createWall d w h : List K) = (wallCells w h).flatMap fun c => [(d : K) + 1 / 2, (c.1 : K) + 1 / 2, (c.2 : K) + 1 / 2] := by
  have inner : ∀ (i : ℤ) (l : List ℤ) (acc : List K), l.foldl (fun (points : List K) (j : ℤ) => points ++ [(d : K) + 1 / 2, (i : K) + 1 / 2, (j : K) + 1 / 2]) acc =
      acc ++ (l.map fun j => (i, j)).flatMap fun c => [(d : K) + 1 / 2, (c.1 : K) + 1 / 2, (c.2 : K) + 1 / 2] := by
    intro i l
    induction l with
    | nil => intro acc; simp
    | cons j l ih => intro acc; rw [List.foldl_cons, ih]; simp
  have outer : ∀ (l : List ℤ) (acc : List K), l.foldl (fun (points : List K) (i : ℤ) => (intsTo 0 h).foldl (fun (points : List K) (j : ℤ) => points ++ [(d : K) + 1 / 2, (i : K) + 1 / 2, (j : K) + 1 / 2]) points) acc =
      acc ++ (l.flatMap fun i => (intsTo 0 h).map fun j => (i, j)).flatMap fun c => [(d : K) + 1 / 2, (c.1 : K) + 1 / 2, (c.2 : K) + 1 / 2] := by
    intro l
    induction l with
    | nil => intro acc; simp
    | cons i l ih => intro acc; rw [List.foldl_cons, ih, inner]; simp [List.flatMap_append]
  have := outer (intsTo (-w) w) []
  simpa [createWall, wallCells] using this

theorem triples_length {A : Type*} (f g h : A → K) (l : List A) : (l.flatMap fun c => [f c, g c, h c]).length = 3 * l.length := by
  induction l with
  | nil => rfl
  | cons a l ih => simp only [List.flatMap_cons, List.length_append, ih, List.length_cons, List.length_nil]; omega

theorem triples_get {A : Type*} (f g h : A → K) (l : List A) (i : ℕ) :
    (l.flatMap fun c => [f c, g c, h c])[3 * i]? = (l[i]?).map f ∧ (l.flatMap fun c => [f c, g c, h c])[3 * i + 1]? = (l[i]?).map g ∧
    (l.flatMap fun c => [f c, g c, h c])[3 * i + 2]? = (l[i]?).map h := by
  induction l generalizing i with
  | nil => simp
  | cons a l ih =>
    cases i with
    | zero => simp
    | succ i =>
      obtain ⟨h1, h2, h3⟩ := ih i
      simp only [List.flatMap_cons, List.cons_append, List.nil_append]
      refine ⟨?_, ?_, ?_⟩
      · rw [show 3 * (i + 1) = 3 * i + 1 + 1 + 1 by ring]; simpa using h1
      · rw [show 3 * (i + 1) + 1 = 3 * i + 1 + 1 + 1 + 1 by ring]; simpa using h2
      · rw [show 3 * (i + 1) + 2 = 3 * i + 2 + 1 + 1 + 1 by ring]; simpa using h3

theorem write_wall (d w h : ℤ) (cloud : List (V3 K)) (i : ℕ) (hi : i < (wallCells w h).length) :
    mockWrite (createWall d w h) cloud i = if i < cloud.length then some (cloud.set i (wallPoint d ((wallCells w h)[i]))) else none := by
  obtain ⟨h1, h2, h3⟩ := triples_get (fun _ => (d : K) + 1 / 2) (fun c : ℤ × ℤ => (c.1 : K) + 1 / 2) (fun c => (c.2 : K) + 1 / 2) (wallCells w h) i
  rw [List.getElem?_eq_getElem hi] at h1 h2 h3
  unfold mockWrite
  rw [wall_flat, Nat.add_zero, h1, h2, h3]
  rfl

theorem loop_wall (d w h : ℤ) (n : ℕ) (hn : n ≤ (wallCells w h).length) :
    loopM (mockWrite (createWall d w h)) (List.replicate 100 (⟨0, 0, 0⟩ : V3 K)) (List.range n) =
      if n ≤ 100 then some (((wallCells w h).take n).map (wallPoint d) ++ List.replicate (100 - n) ⟨0, 0, 0⟩) else none := by
  induction n with
  | zero => simp [loopM]
  | succ n ih =>
    rw [List.range_succ, loop_snoc, ih (by omega)]
    by_cases h1 : n ≤ 100
    · rw [if_pos h1]
      show mockWrite _ _ n = _
      rw [write_wall d w h _ n (by omega)]
      have hlen : (((wallCells w h).take n).map (wallPoint d : ℤ × ℤ → V3 K)).length = n := by simp; omega
      by_cases h2 : n + 1 ≤ 100
      · rw [if_pos h2, if_pos (by rw [List.length_append, hlen]; simp; omega)]
        congr 1
        rw [List.set_append_right _ _ (by omega), hlen, Nat.sub_self, show 100 - n = (100 - (n + 1)) + 1 by omega, List.replicate_succ, List.set_cons_zero,
          List.take_succ, List.getElem?_eq_getElem (show n < (wallCells w h).length by omega), Option.toList_some, List.map_append, List.append_assoc]
        rfl
      · rw [if_neg h2, if_neg (by rw [List.length_append, hlen]; simp; omega)]
    · rw [if_neg h1, if_neg (by omega)]; rfl

theorem mock_eq (d w h : ℤ) : mockCloud (createWall d w h : List K) =
    if (wallCells w h).length ≤ 100 then some ((wallCells w h).map (wallPoint d) ++ List.replicate (100 - (wallCells w h).length) ⟨0, 0, 0⟩) else none := by
  unfold mockCloud
  rw [wall_flat, triples_length, Nat.mul_div_cancel_left _ (by norm_num), ← wall_flat, loop_wall d w h _ le_rfl, List.take_length]

theorem wallCells_length (w h : ℤ) : (wallCells w h).length = (2 * w + 1).toNat * (h + 1).toNat := by
  unfold wallCells
  rw [List.length_flatMap]
  simp only [List.length_map, intsTo_length, List.map_const', List.sum_replicate, smul_eq_mul]
  congr 2 <;> congr 1 <;> ring

omit [LinearOrder K] [IsStrictOrderedRing K] in
theorem mem_wall (d w h : ℤ) (p : V3 K) : p ∈ (wallCells w h).map (wallPoint d) ↔ OnWall d w h p := by
  unfold wallCells wallPoint OnWall
  simp only [List.mem_map, List.mem_flatMap, mem_intsTo]
  constructor
  · rintro ⟨c, ⟨i, hi, j, hj, rfl⟩, rfl⟩
    exact ⟨i, j, hi.1, hi.2, hj.1, hj.2, rfl⟩
  · rintro ⟨i, j, h1, h2, h3, h4, rfl⟩
    exact ⟨(i, j), ⟨i, ⟨h1, h2⟩, j, ⟨h3, h4⟩, rfl⟩, rfl⟩

theorem wall_nodup (d w h : ℤ) : ((wallCells w h).map (wallPoint d : ℤ × ℤ → V3 K)).Nodup := by
  apply List.Nodup.map
  · rintro ⟨i, j⟩ ⟨i', j'⟩ hp
    have h1 := congrArg V3.y hp
    have h2 := congrArg V3.z hp
    dsimp only [wallPoint] at h1 h2
    have h1 : (i : K) = i' := by linarith
    have h2 : (j : K) = j' := by linarith
    rw [Int.cast_inj] at h1 h2
    rw [h1, h2]
  · unfold wallCells
    rw [List.nodup_flatMap]
    refine ⟨fun i _ => (intsTo_nodup 0 h).map (fun a b hab => by simpa using hab), ?_⟩
    refine (intsTo_nodup (-w) w).imp ?_
    intro a b hab
    rw [Function.onFun, List.disjoint_left]
    rintro c hc hc'
    rw [List.mem_map] at hc hc'
    obtain ⟨j, _, rfl⟩ := hc
    obtain ⟨j', _, h⟩ := hc'
    exact hab (congrArg Prod.fst h).symm

/-- **C117, the cloud.** For a wall of any size: if its cells are at most 100, the cloud has exactly 100 points: each centre of a cell of the wall once, and then the origin, as often as there is room; nothing else.
If there are more than 100 cells, the node writes past the end of the message. -/
theorem C117_cloud (dist width height : ℤ) (hw : 0 ≤ width) (hh : 0 ≤ height) :
    if (2 * width + 1) * (height + 1) ≤ 100 then
      ∃ cells rest : List (V3 K), mockCloud (createWall dist width height) = some (cells ++ rest) ∧ (cells ++ rest).length = 100 ∧
        cells.Nodup ∧ (∀ p, p ∈ cells ↔ OnWall dist width height p) ∧ (cells.length : ℤ) = (2 * width + 1) * (height + 1) ∧ ∀ p ∈ rest, p = ⟨0, 0, 0⟩
    else mockCloud (createWall dist width height : List K) = none := by
  have hl : ((wallCells width height).length : ℤ) = (2 * width + 1) * (height + 1) := by
    rw [wallCells_length, Nat.cast_mul, Int.toNat_of_nonneg (by omega), Int.toNat_of_nonneg (by omega)]
  rw [← hl, mock_eq]
  by_cases h : (wallCells width height).length ≤ 100
  · rw [if_pos (by exact_mod_cast h), if_pos h]
    refine ⟨_, _, rfl, by simp; omega, wall_nodup dist width height, mem_wall dist width height, by simp, fun p hp => List.eq_of_mem_replicate hp⟩
  · rw [if_neg (by exact_mod_cast h), if_neg h]

/-- The node makes a wall of 77 cells: the hypotheses hold, and 23 points are left. -/
example : ∃ cells rest : List (V3 ℚ), mockCloud (createWall 5 5 6) = some (cells ++ rest) ∧ cells.length = 77 ∧ rest.length = 23 := by
  have h := C117_cloud (K := ℚ) 5 5 6 (by norm_num) (by norm_num)
  rw [if_pos (by norm_num)] at h
  obtain ⟨cells, rest, h1, h2, -, -, h3, -⟩ := h
  have h3 : cells.length = 77 := by norm_num at h3; exact_mod_cast h3
  refine ⟨cells, rest, h1, h3, ?_⟩
  rw [List.length_append] at h2
  omega

/-- A wall with one more cell to either side does not fit. -/
example : mockCloud (createWall 5 7 6 : List ℚ) = none := by
  have h := C117_cloud (K := ℚ) 5 7 6 (by norm_num) (by norm_num)
  rwa [if_neg (by norm_num)] at h

/-- **C117, finding.** Expected: the cloud of the node shows the wall and nothing else. It also shows an obstacle at the origin, which is in no cell of the wall. -/
theorem C117_origin_violated : ∃ c : List (V3 K), mockCloud (createWall 5 5 6) = some c ∧ ⟨0, 0, 0⟩ ∈ c ∧ ¬ OnWall 5 5 6 (⟨0, 0, 0⟩ : V3 K) := by
  have hl : (wallCells 5 6).length = 77 := by rw [wallCells_length]; rfl
  rw [mock_eq, hl, if_pos (by norm_num)]
  refine ⟨_, rfl, List.mem_append_right _ (by simp), ?_⟩
  rintro ⟨i, j, -, -, -, -, h⟩
  have h := congrArg V3.x h
  norm_num at h

/-- What a list of messages says: the clouds, the poses, the goals. -/
def MockMsg.isCloud : MockMsg K → Bool | .cloud _ => true | _ => false
def MockMsg.isGoal : MockMsg K → Bool | .goal _ => true | _ => false

/-- **C117, the node.** After any number of rounds: one cloud and one pose have been published per round, always the same ones; a goal was published only from the eleventh round on, only once,
and exactly ten clouds and ten poses came before it. -/
theorem C117_node (n : ℕ) : ∃ c : List (V3 K), mockCloud (createWall 5 5 6) = some c ∧
    let d := [MockMsg.cloud c, MockMsg.pose ⟨1 / 2, 5 / 2, 3 / 2⟩]
    (mockNode K n).map Prod.snd = some (if n ≤ 10 then (List.replicate n d).flatten
      else (List.replicate 10 d).flatten ++ [MockMsg.goal ⟨17 / 2, 9 / 2, 3 / 2⟩] ++ (List.replicate (n - 10) d).flatten) := by
  have hl : (wallCells 5 6).length = 77 := by rw [wallCells_length]; rfl
  obtain ⟨c, hc⟩ : ∃ c : List (V3 K), mockCloud (createWall 5 5 6) = some c := by rw [mock_eq, hl, if_pos (by norm_num)]; exact ⟨_, rfl⟩
  refine ⟨c, hc, ?_⟩
  intro d
  have key : mockNode K n = some (n, if n ≤ 10 then (List.replicate n d).flatten
      else (List.replicate 10 d).flatten ++ [MockMsg.goal ⟨17 / 2, 9 / 2, 3 / 2⟩] ++ (List.replicate (n - 10) d).flatten) := by
    induction n with
    | zero => rfl
    | succ n ih =>
      unfold mockNode at ih ⊢
      rw [List.replicate_succ', loop_snoc, ih]
      show mockRound _ _ () = _
      unfold mockRound sendMockData
      rw [hc]
      dsimp only [Option.map]
      congr 2
      by_cases h1 : n = 10
      · subst h1
        rw [if_pos rfl, if_pos le_rfl, if_neg (by norm_num), show 10 + 1 - 10 = 1 by norm_num]
        simp [sendClickedPoint, d]
      · rw [if_neg h1]
        by_cases h2 : n + 1 ≤ 10
        · rw [if_pos h2, if_pos (by omega), List.replicate_succ']
          simp [d]
        · rw [if_neg h2, if_neg (by omega), show n + 1 - 10 = (n - 10) + 1 by omega, List.replicate_succ' (n := n - 10), List.flatten_append]
          simp [d]
  rw [key]
  rfl

/-- After twelve rounds there was one goal. -/
example : ∃ s : ℕ × List (MockMsg ℚ), mockNode ℚ 12 = some s ∧ (s.2.filter MockMsg.isGoal).length = 1 ∧ (s.2.filter MockMsg.isCloud).length = 12 := by
  obtain ⟨c, -, h⟩ := C117_node (K := ℚ) 12
  rw [Option.map_eq_some_iff] at h
  obtain ⟨s, h1, h2⟩ := h
  refine ⟨s, h1, ?_⟩
  rw [h2]
  constructor <;> rfl

end Avoidance.Global
