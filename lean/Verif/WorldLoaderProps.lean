import Verif.WorldLoader
import Mathlib.Tactic.Common

/-!
# C102: the world shown in RViz is the world of the file
-/

namespace Avoidance
namespace World

/-! ## Locations -/

/-- **Specification**: `dirs` are the parts of `s` between the colons. -/
def Parts (dirs : List (List Char)) (s : List Char) : Prop := List.intercalate [':'] dirs = s ∧ dirs ≠ [] ∧ ∀ d ∈ dirs, ':' ∉ d

theorem pieces_parts : ∀ (s cur : List Char), ':' ∉ cur → (cur ++ s).getLast? ≠ some ':' → cur ++ s ≠ [] → Parts (pieces cur s) (cur ++ s)
  | [], cur, hc, _, hne => by
      rw [List.append_nil] at hne ⊢
      unfold pieces
      rw [if_neg hne]
      refine ⟨by simp [List.intercalate], by simp, fun d hd => ?_⟩
      rw [List.mem_singleton.mp hd]; exact hc
  | c :: rest, cur, hc, hl, hne => by
      unfold pieces
      by_cases h : c = ':'
      · rw [if_pos h]
        have hr : rest ≠ [] := by
          rintro rfl
          apply hl
          rw [h, List.getLast?_append]
          rfl
        obtain ⟨h1, h2, h3⟩ := pieces_parts rest [] (by simp) (by
          rw [List.nil_append]
          rw [List.getLast?_append, List.getLast?_cons_of_ne_nil hr] at hl
          intro hx
          rw [hx] at hl
          exact hl rfl) (by simpa using hr)
        rw [List.nil_append] at h1
        refine ⟨?_, by simp, ?_⟩
        · obtain ⟨a, l, hal⟩ := List.exists_cons_of_ne_nil h2
          rw [hal] at h1 ⊢
          rw [List.intercalate_cons_cons, h1, h]
          simp
        · intro d hd
          rcases List.mem_cons.mp hd with rfl | hd
          · exact hc
          · exact h3 d hd
      · rw [if_neg h]
        have := pieces_parts rest (cur ++ [c]) (by
          rw [List.mem_append, not_or]
          refine ⟨hc, ?_⟩
          simp only [List.mem_singleton]
          exact fun hx => h hx.symm) (by simpa using hl) (by simp)
        simpa using this

/-- the parts are determined by the string -/
theorem parts_unique : ∀ (a b : List (List Char)) (s : List Char), Parts a s → Parts b s → a = b
  | [], _, _, h, _ => absurd rfl h.2.1
  | _ :: _, [], _, _, h => absurd rfl h.2.1
  | x :: a, y :: b, s, h1, h2 => by
      have key : ∀ (x y u v : List Char), ':' ∉ x → ':' ∉ y → (u = [] ∨ ∃ u', u = ':' :: u') → (v = [] ∨ ∃ v', v = ':' :: v') → x ++ u = y ++ v → x = y ∧ u = v := by
        intro x
        induction x with
        | nil =>
            intro y u v _ hy hu hv h
            cases y with
            | nil => exact ⟨rfl, h⟩
            | cons c y =>
                exfalso
                rcases hu with rfl | ⟨u', rfl⟩
                · exact absurd h (by simp)
                · have := (List.cons.inj h).1
                  exact hy (by rw [← this]; exact List.mem_cons_self)
        | cons c x ih =>
            intro y u v hx hy hu hv h
            cases y with
            | nil =>
                exfalso
                rcases hv with rfl | ⟨v', rfl⟩
                · exact absurd h (by simp)
                · have := (List.cons.inj h).1
                  exact hx (by rw [this]; exact List.mem_cons_self)
            | cons d y =>
                obtain ⟨h1, h2⟩ := List.cons.inj h
                obtain ⟨k1, k2⟩ := ih y u v (fun hc => hx (List.mem_cons_of_mem _ hc)) (fun hc => hy (List.mem_cons_of_mem _ hc)) hu hv h2
                exact ⟨by rw [h1, k1], k2⟩
      obtain ⟨e1, _, c1⟩ := h1
      obtain ⟨e2, _, c2⟩ := h2
      have hx := c1 x List.mem_cons_self
      have hy := c2 y List.mem_cons_self
      cases a with
      | nil =>
          cases b with
          | nil =>
              obtain ⟨k, _⟩ := key x y [] [] hx hy (Or.inl rfl) (Or.inl rfl) (by simpa [List.intercalate] using e1.trans e2.symm)
              rw [k]
          | cons b1 b =>
              rw [List.intercalate_cons_cons] at e2
              obtain ⟨_, k⟩ := key x y [] (':' :: List.intercalate [':'] (b1 :: b)) hx hy (Or.inl rfl) (Or.inr ⟨_, rfl⟩) (by
                simpa [List.intercalate] using e1.trans e2.symm)
              exact absurd k (by simp)
      | cons a1 a =>
          rw [List.intercalate_cons_cons] at e1
          cases b with
          | nil =>
              obtain ⟨_, k⟩ := key x y (':' :: List.intercalate [':'] (a1 :: a)) [] hx hy (Or.inr ⟨_, rfl⟩) (Or.inl rfl) (by
                simpa [List.intercalate] using e1.trans e2.symm)
              exact absurd k (by simp)
          | cons b1 b =>
              rw [List.intercalate_cons_cons] at e2
              obtain ⟨k1, k2⟩ := key x y (':' :: List.intercalate [':'] (a1 :: a)) (':' :: List.intercalate [':'] (b1 :: b)) hx hy (Or.inr ⟨_, rfl⟩) (Or.inr ⟨_, rfl⟩) (by
                simpa using e1.trans e2.symm)
              rw [k1, parts_unique (a1 :: a) (b1 :: b) _ ⟨rfl, by simp, fun d hd => c1 d (List.mem_cons_of_mem _ hd)⟩
                ⟨(List.cons.inj k2).2.symm, by simp, fun d hd => c2 d (List.mem_cons_of_mem _ hd)⟩]

theorem tryLocations_iff (stat : List Char → Option Kind) (uri u : List Char) : ∀ dirs, tryLocations stat uri dirs = some u ↔
    ∃ before d after, dirs = before ++ d :: after ∧ (∃ k, stat (d ++ uri) = some k ∧ k.regBit = true) ∧
      (∀ b ∈ before, ¬ ∃ k, stat (b ++ uri) = some k ∧ k.regBit = true) ∧ u = "file://".toList ++ d ++ uri
  | [] => by
      refine ⟨fun h => absurd h (by simp [tryLocations]), ?_⟩
      rintro ⟨before, d, after, h, _⟩
      exact absurd h (by simp)
  | x :: dirs => by
      by_cases hx : ∃ k, stat (x ++ uri) = some k ∧ k.regBit = true
      · obtain ⟨k, h1, h2⟩ := hx
        have hu : tryLocations stat uri (x :: dirs) = some ("file://".toList ++ x ++ uri) := by
          unfold tryLocations
          rw [h1]
          dsimp only
          rw [if_pos h2]
        rw [hu]
        constructor
        · intro h
          exact ⟨[], x, dirs, rfl, ⟨k, h1, h2⟩, by simp, (Option.some.inj h).symm⟩
        · rintro ⟨before, d, after, hd, _, hb, rfl⟩
          cases before with
          | nil => rw [(List.cons.inj hd).1]
          | cons b before =>
              exfalso
              rw [List.cons_append] at hd
              exact hb b List.mem_cons_self (by rw [← (List.cons.inj hd).1]; exact ⟨k, h1, h2⟩)
      · have hu : tryLocations stat uri (x :: dirs) = tryLocations stat uri dirs := by
          rw [tryLocations]
          cases hs : stat (x ++ uri) with
          | none => rfl
          | some k =>
              dsimp only
              rw [if_neg (fun h => hx ⟨k, hs, h⟩)]
        rw [hu, tryLocations_iff stat uri u dirs]
        constructor
        · rintro ⟨before, d, after, h1, h2, h3, h4⟩
          refine ⟨x :: before, d, after, by rw [h1]; rfl, h2, ?_, h4⟩
          intro b hb
          rcases List.mem_cons.mp hb with rfl | hb
          · exact hx
          · exact h3 b hb
        · rintro ⟨before, d, after, h1, h2, h3, h4⟩
          cases before with
          | nil =>
              exfalso
              apply hx
              rw [(List.cons.inj h1).1]
              exact h2
          | cons b before =>
              rw [List.cons_append] at h1
              exact ⟨before, d, after, (List.cons.inj h1).2, h2, fun c hc => h3 c (List.mem_cons_of_mem _ hc), h4⟩

/-- **Specification**: a file (or, see `C102_socket_violated`, a socket) exists at the path. -/
def Accepts (E : Env) (p : List Char) : Prop := E.stat p = some .file ∨ E.stat p = some .socket

theorem accepts_iff (E : Env) (p : List Char) : (∃ k, E.stat p = some k ∧ k.regBit = true) ↔ Accepts E p := by
  constructor
  · rintro ⟨k, h1, h2⟩
    cases k
    · exact Or.inl h1
    · exact Or.inr h1
    all_goals exact absurd h2 (by simp [Kind.regBit])
  · rintro (h | h)
    · exact ⟨_, h, rfl⟩
    · exact ⟨_, h, rfl⟩

/-- **C102**: `model://name` is resolved to the file `name` in the first of the directories of `GAZEBO_MODEL_PATH` (separated by colons) and then `$HOME/.gazebo/models` in
which it exists, and to nothing if there is none. -/
theorem C102_resolve_partial (E : Env) (path home name : List Char) (hp : E.modelPath = some path) (hh : E.home = some home) (dirs : List (List Char))
    (hd : Parts dirs (path ++ ":".toList ++ home ++ "/.gazebo/models".toList)) :
    (∀ u, resolveUri E ("model://".toList ++ name) = some (some u) ↔
      ∃ before d after, dirs = before ++ d :: after ∧ Accepts E (d ++ "/".toList ++ name) ∧ (∀ b ∈ before, ¬ Accepts E (b ++ "/".toList ++ name)) ∧
        u = "file://".toList ++ d ++ "/".toList ++ name) ∧
    (resolveUri E ("model://".toList ++ name) = some none ↔ ∀ d ∈ dirs, ¬ Accepts E (d ++ "/".toList ++ name)) := by
  have hlen : ¬ ("model://".toList ++ name).length < 7 := by
    have : ("model://".toList).length = 8 := rfl
    rw [List.length_append]
    omega
  have hpieces : pieces [] (path ++ ":".toList ++ home ++ "/.gazebo/models".toList) = dirs := by
    have hlast : (path ++ ":".toList ++ home ++ "/.gazebo/models".toList).getLast? = some 's' := by
      rw [List.getLast?_append]; rfl
    refine parts_unique _ _ _ (pieces_parts _ [] (by simp) ?_ ?_) hd
    · rw [List.nil_append, hlast]; decide
    · rw [List.nil_append]
      intro h
      rw [h] at hlast
      exact absurd hlast (by simp)
  have hdrop : ("model://".toList ++ name).drop 7 = "/".toList ++ name := rfl
  have hr : resolveUri E ("model://".toList ++ name) = some (tryLocations E.stat ("/".toList ++ name) dirs) := by
    unfold resolveUri
    rw [if_neg hlen, hp, hh]
    dsimp only
    rw [hpieces, hdrop]
  have hsome : ∀ u, tryLocations E.stat ("/".toList ++ name) dirs = some u ↔
      ∃ before d after, dirs = before ++ d :: after ∧ Accepts E (d ++ "/".toList ++ name) ∧ (∀ b ∈ before, ¬ Accepts E (b ++ "/".toList ++ name)) ∧
        u = "file://".toList ++ d ++ "/".toList ++ name := by
    intro u
    rw [tryLocations_iff]
    simp only [accepts_iff, List.append_assoc]
  rw [hr]
  constructor
  · intro u
    rw [← hsome u]
    exact ⟨fun h => Option.some.inj h, fun h => by rw [h]⟩
  · constructor
    · intro h d hd' hacc
      have hn := Option.some.inj h
      have key : ∀ l : List (List Char), (∃ d ∈ l, Accepts E (d ++ "/".toList ++ name)) → tryLocations E.stat ("/".toList ++ name) l ≠ none := by
        intro l
        induction l with
        | nil => rintro ⟨d, hd, _⟩; exact absurd hd (by simp)
        | cons x l ih =>
            rintro ⟨d, hd, ha⟩
            rw [tryLocations]
            cases hs : E.stat (x ++ ("/".toList ++ name)) with
            | none =>
                dsimp only
                rcases List.mem_cons.mp hd with rfl | hd
                · rcases ha with ha | ha <;> rw [List.append_assoc, hs] at ha <;> exact absurd ha (by simp)
                · exact ih ⟨d, hd, ha⟩
            | some k =>
                dsimp only
                split
                · simp
                · rename_i hk
                  rcases List.mem_cons.mp hd with rfl | hd
                  · rw [← accepts_iff] at ha
                    obtain ⟨k', h1, h2⟩ := ha
                    rw [List.append_assoc, hs] at h1
                    rw [Option.some.inj h1] at hk
                    exact absurd h2 hk
                  · exact ih ⟨d, hd, ha⟩
      exact key dirs ⟨d, hd', hacc⟩ hn
    · intro h
      cases ht : tryLocations E.stat ("/".toList ++ name) dirs with
      | none => rfl
      | some u =>
          obtain ⟨before, d, after, h1, h2, _⟩ := (hsome u).mp ht
          exact absurd h2 (h d (by rw [h1]; simp))

/-- two directories; the second has the model, the first has a directory of that name -/
example : let E : Env := ⟨some "/a:/b".toList, some "/h".toList, fun p => if p = "/b/x.dae".toList then some .file else if p = "/a/x.dae".toList then some .directory else none⟩
    Parts ["/a".toList, "/b".toList, "/h/.gazebo/models".toList] ("/a:/b".toList ++ ":".toList ++ "/h".toList ++ "/.gazebo/models".toList) ∧
    resolveUri E "model://x.dae".toList = some (some "file:///b/x.dae".toList) := by
  refine ⟨⟨by decide +kernel, by simp, by decide +kernel⟩, by decide +kernel⟩

/-- **C102** (sockets pass for files): the test of the mode has a single bit. -/
theorem C102_socket_violated : ∃ (E : Env) (u : List Char), E.stat "/a/x.dae".toList = some .socket ∧ resolveUri E "model://x.dae".toList = some (some u) := by
  refine ⟨⟨some "/a".toList, some "/h".toList, fun p => if p = "/a/x.dae".toList then some .socket else none⟩, "file:///a/x.dae".toList, ?_, ?_⟩ <;> decide +kernel

/-- **C102** (the environment is not checked): without `GAZEBO_MODEL_PATH` (or `HOME`) a null pointer is used as a string. -/
theorem C102_environment_violated (E : Env) (name : List Char) (h : E.modelPath = none ∨ E.home = none) : resolveUri E ("model://".toList ++ name) = none := by
  unfold resolveUri
  split
  · rfl
  · rcases h with h | h
    · rw [h]
    · rw [h]
      cases E.modelPath <;> rfl

/-! ## Markers -/

theorem occurs_prefix (name : List Char) : occurs "model://".toList ("model://".toList ++ name) = true := by
  have : "model://".toList ++ name = 'm' :: ("odel://".toList ++ name) := rfl
  rw [this, occurs, ← this]
  simp

theorem occurs_iff (t : List Char) : ∀ s, occurs t s = true ↔ ∃ a b, s = a ++ t ++ b
  | [] => by
      unfold occurs
      constructor
      · intro h
        exact ⟨[], [], by rw [List.isEmpty_iff.mp h]; rfl⟩
      · rintro ⟨a, b, h⟩
        cases t with
        | nil => rfl
        | cons c t => exact absurd h (by simp)
  | c :: s => by
      unfold occurs
      rw [Bool.or_eq_true, List.isPrefixOf_iff_prefix, occurs_iff t s]
      constructor
      · rintro (⟨b, h⟩ | ⟨a, b, h⟩)
        · exact ⟨[], b, by rw [List.nil_append, h]⟩
        · exact ⟨c :: a, b, by rw [h]; rfl⟩
      · rintro ⟨a, b, h⟩
        cases a with
        | nil => left; exact ⟨b, by rw [h]; rfl⟩
        | cons x a =>
            right
            rw [List.cons_append, List.cons_append] at h
            exact ⟨a, b, (List.cons.inj h).2⟩

variable {N : Type}

/-- **Specification**: the marker `m` shows the object `o`: it has its frame, pose and size and number `i`, and the shape named by its type; a mesh is the one named by the
object, or the file found for it if the name contains `model://`. -/
structure Shows (E : Env) (i : ℕ) (o : Obj N) (m : Marker N) : Prop where
  id : m.id = i
  frame : m.frame = o.frame
  position : m.position = o.position
  orientation : m.orientation = o.orientation
  scale : m.scale = o.scale
  shape : o.type = (match m.shape with | .mesh => "mesh" | .cube => "cube" | .sphere => "sphere" | .cylinder => "cylinder").toList
  mesh : m.shape = .mesh →
    ((¬ ∃ a b, o.mesh = a ++ "model://".toList ++ b) → m.mesh = o.mesh) ∧
    ((∃ a b, o.mesh = a ++ "model://".toList ++ b) → resolveUri E o.mesh = some (some m.mesh))
  plain : m.shape ≠ .mesh → m.mesh = []
  look : m.embedded = decide (m.shape = .mesh) ∧ m.grey = !m.embedded

theorem shapeOf_iff (E : Env) (i : ℕ) (o : Obj N) (m : Marker N) : Shows E i o m ↔
    ∃ s mesh emb grey, shapeOf E o = some (some (s, mesh, emb, grey)) ∧ m = ⟨i, o.frame, s, mesh, emb, grey, o.position, o.orientation, o.scale⟩ := by
  have hmc : "cube".toList ≠ "mesh".toList := by decide
  have hms : "sphere".toList ≠ "mesh".toList := by decide
  have hsc : "sphere".toList ≠ "cube".toList := by decide
  have hym : "cylinder".toList ≠ "mesh".toList := by decide
  have hyc : "cylinder".toList ≠ "cube".toList := by decide
  have hys : "cylinder".toList ≠ "sphere".toList := by decide
  constructor
  · rintro ⟨h1, h2, h3, h4, h5, h6, h7, h8, h9, h10⟩
    obtain ⟨id, frame, shape, mesh, emb, grey, p, q, sc⟩ := m
    dsimp only at h1 h2 h3 h4 h5 h6 h7 h8 h9 h10
    subst h1; subst h2; subst h3; subst h4; subst h5; subst h10
    refine ⟨shape, mesh, emb, !emb, ?_, rfl⟩
    rw [h9]
    unfold shapeOf
    cases shape with
    | mesh =>
        obtain ⟨k1, k2⟩ := h7 rfl
        rw [if_pos h6]
        by_cases ho : occurs "model://".toList o.mesh = true
        · rw [if_pos ho, k2 ((occurs_iff _ _).mp ho)]
          rfl
        · rw [if_neg ho, k1 (fun hx => ho ((occurs_iff _ _).mpr hx))]
          rfl
    | cube => rw [if_neg (by rw [h6]; exact hmc), if_pos h6, h8 (by simp)]; rfl
    | sphere => rw [if_neg (by rw [h6]; exact hms), if_neg (by rw [h6]; exact hsc), if_pos h6, h8 (by simp)]; rfl
    | cylinder => rw [if_neg (by rw [h6]; exact hym), if_neg (by rw [h6]; exact hyc), if_neg (by rw [h6]; exact hys), if_pos h6, h8 (by simp)]; rfl
  · rintro ⟨s, mesh, emb, grey, h, rfl⟩
    unfold shapeOf at h
    by_cases h1 : o.type = "mesh".toList
    · rw [if_pos h1] at h
      by_cases ho : occurs "model://".toList o.mesh = true
      · rw [if_pos ho] at h
        cases hr : resolveUri E o.mesh with
        | none => rw [hr] at h; exact absurd h (by simp)
        | some r =>
            cases r with
            | none => rw [hr] at h; exact absurd h (by simp)
            | some u =>
                rw [hr] at h
                dsimp only at h
                simp only [Option.some.injEq, Prod.mk.injEq] at h
                obtain ⟨rfl, rfl, rfl, rfl⟩ := h
                exact ⟨rfl, rfl, rfl, rfl, rfl, h1, fun _ => ⟨fun hx => absurd ((occurs_iff _ _).mp ho) hx, fun _ => hr⟩, fun hx => absurd rfl hx, by simp⟩
      · rw [if_neg ho] at h
        simp only [Option.some.injEq, Prod.mk.injEq] at h
        obtain ⟨rfl, rfl, rfl, rfl⟩ := h
        exact ⟨rfl, rfl, rfl, rfl, rfl, h1, fun _ => ⟨fun _ => rfl, fun hx => absurd ((occurs_iff _ _).mpr hx) ho⟩, fun hx => absurd rfl hx, by simp⟩
    · rw [if_neg h1] at h
      by_cases h2 : o.type = "cube".toList
      · rw [if_pos h2] at h
        simp only [Option.some.injEq, Prod.mk.injEq] at h
        obtain ⟨rfl, rfl, rfl, rfl⟩ := h
        exact ⟨rfl, rfl, rfl, rfl, rfl, h2, fun hx => absurd hx (by simp), fun _ => rfl, by simp⟩
      · rw [if_neg h2] at h
        by_cases h3 : o.type = "sphere".toList
        · rw [if_pos h3] at h
          simp only [Option.some.injEq, Prod.mk.injEq] at h
          obtain ⟨rfl, rfl, rfl, rfl⟩ := h
          exact ⟨rfl, rfl, rfl, rfl, rfl, h3, fun hx => absurd hx (by simp), fun _ => rfl, by simp⟩
        · rw [if_neg h3] at h
          by_cases h4 : o.type = "cylinder".toList
          · rw [if_pos h4] at h
            simp only [Option.some.injEq, Prod.mk.injEq] at h
            obtain ⟨rfl, rfl, rfl, rfl⟩ := h
            exact ⟨rfl, rfl, rfl, rfl, rfl, h4, fun hx => absurd hx (by simp), fun _ => rfl, by simp⟩
          · rw [if_neg h4] at h
            exact absurd h (by simp)

/-- **Specification**: the markers `ms` show the objects `objs`, one each and in order, numbered from `i`. -/
def ShowsAll (E : Env) : ℕ → List (Obj N) → List (Marker N) → Prop
  | _, [], ms => ms = []
  | i, o :: os, ms => ∃ m rest, ms = m :: rest ∧ Shows E i o m ∧ ShowsAll E (i + 1) os rest

theorem loadLoop_iff (E : Env) : ∀ (l : List (Option (Obj N))) (c : ℕ) (acc ms : List (Marker N)), loadLoop E c acc l = .published ms ↔
    ∃ objs rest, l = objs.map some ∧ ms = acc ++ rest ∧ ShowsAll E (c + 1) objs rest
  | [], c, acc, ms => by
      unfold loadLoop
      constructor
      · intro h
        injection h with h
        exact ⟨[], [], rfl, by rw [h, List.append_nil], rfl⟩
      · rintro ⟨objs, rest, h1, h2, h3⟩
        cases objs with
        | nil => rw [show rest = [] from h3, List.append_nil] at h2; rw [h2]
        | cons o os => exact absurd h1 (by simp)
  | none :: l, c, acc, ms => by
      unfold loadLoop
      constructor
      · intro h; exact absurd h (by simp)
      · rintro ⟨objs, rest, h1, _⟩
        cases objs with
        | nil => exact absurd h1 (by simp)
        | cons o os => exact absurd h1 (by simp)
  | some o :: l, c, acc, ms => by
      rw [loadLoop]
      have hcons : ∀ (objs : List (Obj N)), some o :: l = objs.map some ↔ ∃ os, objs = o :: os ∧ l = os.map some := by
        intro objs
        cases objs with
        | nil => simp
        | cons x os =>
            rw [List.map_cons]
            constructor
            · intro h
              obtain ⟨k1, k2⟩ := List.cons.inj h
              exact ⟨os, by rw [Option.some.inj k1], k2⟩
            · rintro ⟨os', k1, k2⟩
              obtain ⟨rfl, rfl⟩ := List.cons.inj k1
              rw [k2]
      cases hs : shapeOf E o with
      | none =>
          dsimp only
          constructor
          · intro h; exact absurd h (by simp)
          · rintro ⟨objs, rest, h1, _, h3⟩
            obtain ⟨os, rfl, _⟩ := (hcons objs).mp h1
            obtain ⟨m, r, _, hm, _⟩ := h3
            obtain ⟨_, _, _, _, k, _⟩ := (shapeOf_iff E _ o m).mp hm
            rw [hs] at k
            exact absurd k (by simp)
      | some q =>
          cases q with
          | none =>
              dsimp only
              constructor
              · intro h; exact absurd h (by simp)
              · rintro ⟨objs, rest, h1, _, h3⟩
                obtain ⟨os, rfl, _⟩ := (hcons objs).mp h1
                obtain ⟨m, r, _, hm, _⟩ := h3
                obtain ⟨_, _, _, _, k, _⟩ := (shapeOf_iff E _ o m).mp hm
                rw [hs] at k
                exact absurd k (by simp)
          | some q =>
              obtain ⟨s, mesh, emb, grey⟩ := q
              dsimp only
              rw [loadLoop_iff E l (c + 1)]
              constructor
              · rintro ⟨os, rest, h1, h2, h3⟩
                refine ⟨o :: os, ⟨c + 1, o.frame, s, mesh, emb, grey, o.position, o.orientation, o.scale⟩ :: rest, by rw [h1]; rfl, by rw [h2]; simp, ?_⟩
                exact ⟨_, rest, rfl, (shapeOf_iff E _ o _).mpr ⟨s, mesh, emb, grey, hs, rfl⟩, h3⟩
              · rintro ⟨objs, rest, h1, h2, h3⟩
                obtain ⟨os, rfl, hos⟩ := (hcons objs).mp h1
                obtain ⟨m, r, rfl, hm, h4⟩ := h3
                obtain ⟨s', mesh', emb', grey', k, rfl⟩ := (shapeOf_iff E _ o m).mp hm
                rw [hs] at k
                simp only [Option.some.injEq, Prod.mk.injEq] at k
                obtain ⟨rfl, rfl, rfl, rfl⟩ := k
                exact ⟨os, r, hos, by rw [h2]; simp, h4⟩

/-- **C102**: a file that describes a list of objects is shown completely or not at all: markers are published exactly if every object is complete, of a known type and its
mesh can be found, and then there is one marker for each object, in order, numbered from 1, with its frame, pose, size, shape and mesh. -/
theorem C102_markers_partial (E : Env) (l : List (Option (Obj N))) (ms : List (Marker N)) : visualizeWorld E (.objects l) = .published ms ↔
    ∃ objs, l = objs.map some ∧ ShowsAll E 1 objs ms := by
  show loadLoop E 0 [] l = .published ms ↔ _
  rw [loadLoop_iff]
  constructor
  · rintro ⟨objs, rest, h1, h2, h3⟩
    rw [List.nil_append] at h2
    exact ⟨objs, h1, by rw [h2]; exact h3⟩
  · rintro ⟨objs, h1, h2⟩
    exact ⟨objs, ms, h1, rfl, h2⟩

/-- a file with a mesh, a cube and a cylinder -/
def exObjs : List (Option (Obj ℕ)) :=
  [some ⟨"mesh".toList, "tree".toList, "map".toList, "model://x.dae".toList, (1, 2, 3), (0, 0, 0, 1), (1, 1, 1)⟩,
   some ⟨"cube".toList, "box".toList, "map".toList, [], (4, 5, 6), (0, 0, 0, 1), (2, 2, 2)⟩,
   some ⟨"cylinder".toList, "pole".toList, "local".toList, [], (7, 8, 9), (0, 0, 1, 0), (1, 1, 5)⟩]

def exWorldEnv : Env := ⟨some "/a".toList, some "/h".toList, fun p => if p = "/h/.gazebo/models/x.dae".toList then some .file else none⟩

def exMarkers : List (Marker ℕ) :=
  [⟨1, "map".toList, .mesh, "file:///h/.gazebo/models/x.dae".toList, true, false, (1, 2, 3), (0, 0, 0, 1), (1, 1, 1)⟩,
   ⟨2, "map".toList, .cube, [], false, true, (4, 5, 6), (0, 0, 0, 1), (2, 2, 2)⟩,
   ⟨3, "local".toList, .cylinder, [], false, true, (7, 8, 9), (0, 0, 1, 0), (1, 1, 5)⟩]

theorem exWorld_published : visualizeWorld exWorldEnv (.objects exObjs) = .published exMarkers := by
  show loadLoop exWorldEnv 0 [] exObjs = _
  have h1 : shapeOf exWorldEnv (⟨"mesh".toList, "tree".toList, "map".toList, "model://x.dae".toList, (1, 2, 3), (0, 0, 0, 1), (1, 1, 1)⟩ : Obj ℕ) =
      some (some (.mesh, "file:///h/.gazebo/models/x.dae".toList, true, false)) := by decide +kernel
  have h2 : shapeOf exWorldEnv (⟨"cube".toList, "box".toList, "map".toList, [], (4, 5, 6), (0, 0, 0, 1), (2, 2, 2)⟩ : Obj ℕ) =
      some (some (.cube, [], false, true)) := by decide +kernel
  have h3 : shapeOf exWorldEnv (⟨"cylinder".toList, "pole".toList, "local".toList, [], (7, 8, 9), (0, 0, 1, 0), (1, 1, 5)⟩ : Obj ℕ) =
      some (some (.cylinder, [], false, true)) := by decide +kernel
  unfold exObjs
  rw [loadLoop, h1]
  dsimp only
  rw [loadLoop, h2]
  dsimp only
  rw [loadLoop, h3]
  rfl

/-- an object without a known type: nothing is published -/
example : visualizeWorld exWorldEnv (.objects (exObjs ++ [some ⟨"cone".toList, [], [], [], (0, 0, 0), (0, 0, 0, 1), (1, 1, 1)⟩])) ≠ .published exMarkers := by
  intro h
  obtain ⟨objs, h1, h2⟩ := (C102_markers_partial _ _ _).mp h
  have hl : objs.length = 4 := by
    have := congrArg List.length h1
    rw [List.length_map] at this
    exact this.symm
  have key : ∀ (objs : List (Obj ℕ)) (i : ℕ) (ms : List (Marker ℕ)), ShowsAll exWorldEnv i objs ms → ms.length = objs.length := by
    intro objs
    induction objs with
    | nil => intro i ms h; rw [show ms = [] from h]; rfl
    | cons o os ih =>
        rintro i ms ⟨m, rest, rfl, _, h⟩
        rw [List.length_cons, List.length_cons, ih _ _ h]
  have := key _ _ _ h2
  rw [hl] at this
  exact absurd this (by decide)

/-- **C102** (failures that are not noticed): a file that does not exist counts as a world without objects that was loaded. -/
theorem C102_missing_file_violated (E : Env) : visualizeWorld E (.empty : Doc N) = .published [] := rfl

/-! ## What is on the screen -/

theorem showsAll_id (E : Env) : ∀ (objs : List (Obj N)) (i : ℕ) (ms : List (Marker N)), ShowsAll E i objs ms →
    ms.length = objs.length ∧ ∀ j (h : j < ms.length), (ms[j]).id = i + j
  | [], i, ms, h => by rw [show ms = [] from h]; exact ⟨rfl, fun j h => absurd h (by simp)⟩
  | o :: os, i, ms, h => by
      obtain ⟨m, rest, rfl, hm, hr⟩ := h
      obtain ⟨h1, h2⟩ := showsAll_id E os (i + 1) rest hr
      refine ⟨by rw [List.length_cons, List.length_cons, h1], ?_⟩
      intro j hj
      cases j with
      | zero => exact hm.id
      | succ j =>
          rw [List.getElem_cons_succ, h2 j (by simpa using hj)]
          omega

/-- which markers a published message holds -/
theorem published_id {E : Env} {d : Doc N} {ms : List (Marker N)} (h : visualizeWorld E d = .published ms) : ∀ j (hj : j < ms.length), (ms[j]).id = j + 1 := by
  cases d with
  | empty =>
      obtain rfl : [] = ms := by injection h
      intro j hj
      exact absurd hj (by simp)
  | objects l =>
      obtain ⟨objs, _, h2⟩ := (C102_markers_partial E l ms).mp h
      intro j hj
      rw [(showsAll_id E objs 1 ms h2).2 j hj]
      omega
  | map => exact absurd h (by simp [visualizeWorld])
  | broken => exact absurd h (by simp [visualizeWorld])

theorem show1_eq {E : Env} {d : Doc N} {ms : List (Marker N)} (h : visualizeWorld E d = .published ms) (shown : ℕ → Option (Marker N)) (i : ℕ) :
    show1 shown ms i = if 0 < i ∧ i ≤ ms.length then ms[i - 1]? else shown i := by
  have hid := published_id h
  unfold show1
  by_cases hi : 0 < i ∧ i ≤ ms.length
  · rw [if_pos hi]
    have hj : i - 1 < ms.length := by omega
    cases hf : ms.reverse.find? (fun m => m.id == i) with
    | none =>
        exfalso
        rw [List.find?_eq_none] at hf
        have := hf (ms[i - 1]) (List.mem_reverse.mpr (List.getElem_mem hj))
        apply this
        rw [hid (i - 1) hj]
        simp
        omega
    | some m =>
        dsimp only
        have h1 := List.mem_reverse.mp (List.mem_of_find?_eq_some hf)
        have h2 := List.find?_some hf
        obtain ⟨j, hj', rfl⟩ := List.getElem_of_mem h1
        have h3 : (ms[j]).id = i := by simpa using h2
        rw [hid j hj'] at h3
        have : i - 1 = j := by omega
        rw [this, List.getElem?_eq_getElem hj']
  · rw [if_neg hi]
    have hf : ms.reverse.find? (fun m => m.id == i) = none := by
      rw [List.find?_eq_none]
      intro m hm hx
      obtain ⟨j, hj', rfl⟩ := List.getElem_of_mem (List.mem_reverse.mp hm)
      have h3 : (ms[j]).id = i := by simpa using hx
      rw [hid j hj'] at h3
      exact hi ⟨by omega, by omega⟩
    rw [hf]

/-- **Specification**: the worlds published while the node ran, oldest first. -/
def worlds (E : Env) : List (Doc N) → List (List (Marker N))
  | [] => []
  | d :: rest => match visualizeWorld E d with
    | .published ms => ms :: worlds E rest
    | .refused => worlds E rest
    | _ => []

/-- **C102**: the marker number `i` on the screen is object `i` of the last world published that had at least `i` objects. -/
theorem C102_screen_partial (E : Env) (docs : List (Doc N)) (i : ℕ) :
    screen E (fun _ => none) docs i =
      if i = 0 then none else ((worlds E docs).reverse.find? (fun ms => decide (i ≤ ms.length))).bind (fun ms => ms[i - 1]?) := by
  have key : ∀ (docs : List (Doc N)) (shown : ℕ → Option (Marker N)), screen E shown docs i =
      if i = 0 then shown 0 else match (worlds E docs).reverse.find? (fun ms => decide (i ≤ ms.length)) with
        | some ms => ms[i - 1]?
        | none => shown i := by
    intro docs
    induction docs with
    | nil => intro shown; by_cases h : i = 0 <;> simp [screen, worlds, h]
    | cons d rest ih =>
        intro shown
        rw [screen, worlds]
        cases hv : visualizeWorld E d with
        | published ms =>
            dsimp only
            rw [ih]
            by_cases h0 : i = 0
            · rw [if_pos h0, if_pos h0, show1_eq hv, if_neg (by omega)]
            · rw [if_neg h0, if_neg h0, List.reverse_cons, List.find?_append]
              cases hf : (worlds E rest).reverse.find? (fun ms => decide (i ≤ ms.length)) with
              | some ms' => rfl
              | none =>
                  dsimp only [Option.none_or, Option.or]
                  rw [show1_eq hv]
                  by_cases hi : i ≤ ms.length
                  · rw [if_pos ⟨by omega, hi⟩]
                    simp [hi]
                  · rw [if_neg (fun h => hi h.2)]
                    simp [hi]
        | refused => dsimp only; rw [ih]
        | thrown => by_cases h0 : i = 0 <;> simp [h0]
        | undefined => by_cases h0 : i = 0 <;> simp [h0]
  rw [key]
  by_cases h0 : i = 0
  · rw [if_pos h0, if_pos h0]
  · rw [if_neg h0, if_neg h0]
    cases (worlds E docs).reverse.find? (fun ms => decide (i ≤ ms.length)) <;> rfl

/-- **C102**: as long as no world published has fewer objects than one before it, the screen shows exactly the last one. -/
theorem C102_screen_exact_partial (E : Env) (docs : List (Doc N)) (before : List (List (Marker N))) (ms : List (Marker N)) (h : worlds E docs = before ++ [ms])
    (hgrow : ∀ w ∈ before, w.length ≤ ms.length) (i : ℕ) :
    screen E (fun _ => none) docs i = if i = 0 then none else ms[i - 1]? := by
  rw [C102_screen_partial, h]
  by_cases h0 : i = 0
  · rw [if_pos h0, if_pos h0]
  · rw [if_neg h0, if_neg h0, List.reverse_append, List.reverse_singleton, List.singleton_append, List.find?_cons]
    by_cases hi : i ≤ ms.length
    · simp [hi]
    · have hn : before.reverse.find? (fun ms => decide (i ≤ ms.length)) = none := by
        rw [List.find?_eq_none]
        intro w hw
        have := hgrow w (List.mem_reverse.mp hw)
        simp
        omega
      simp only [hi, decide_false, hn]
      rw [List.getElem?_eq_none (by omega)]
      rfl

/-- a world shown twice -/
example : worlds exWorldEnv [.objects exObjs, .objects exObjs] = [exMarkers] ++ [exMarkers] := by
  rw [worlds, exWorld_published]
  dsimp only
  rw [worlds, exWorld_published]
  rfl

/-- **C102** (objects stay for ever): an object that was removed from the file is still shown. -/
theorem C102_removed_object_violated : ∃ (docs : List (Doc ℕ)) (m : Marker ℕ), docs.getLast? = some .empty ∧
    worlds exWorldEnv docs = [exMarkers] ++ [[]] ∧ screen exWorldEnv (fun _ => none) docs 2 = some m := by
  have h : worlds exWorldEnv [.objects exObjs, .empty] = [exMarkers] ++ [[]] := by
    rw [worlds, exWorld_published]
    rfl
  refine ⟨[.objects exObjs, .empty], ⟨2, "map".toList, .cube, [], false, true, (4, 5, 6), (0, 0, 0, 1), (2, 2, 2)⟩, rfl, h, ?_⟩
  rw [C102_screen_partial, h]
  rfl

/-- **C102**: with a world given, the drone is shown at the pose received, exactly if its model is found; without a world nothing is shown and nothing goes wrong. -/
theorem C102_drone_partial (E : Env) (path : List Char) (size : N) (p : N × N × N) (q : N × N × N × N) :
    (∀ m : Marker N, visualizeDrone E path size p q = some (some m) ↔
      path ≠ [] ∧ m.id = 0 ∧ m.frame = "local_origin".toList ∧ m.shape = .mesh ∧ m.embedded = true ∧ m.grey = false ∧ m.position = p ∧ m.orientation = q ∧
      m.scale = (size, size, size) ∧ resolveUri E ("model://".toList ++ "matrice_100/meshes/Matrice_100.dae".toList) = some (some m.mesh)) ∧
    (visualizeDrone E path size p q = some none ↔
      path = [] ∨ resolveUri E ("model://".toList ++ "matrice_100/meshes/Matrice_100.dae".toList) = some none) := by
  have hs : "model://".toList ++ "matrice_100/meshes/Matrice_100.dae".toList = "model://matrice_100/meshes/Matrice_100.dae".toList := by decide
  rw [hs]
  unfold visualizeDrone
  by_cases hp : path = []
  · rw [if_pos hp]
    simp [hp]
  · rw [if_neg hp]
    cases hr : resolveUri E "model://matrice_100/meshes/Matrice_100.dae".toList with
    | none => simp [hp]
    | some r =>
        cases r with
        | none => simp [hp]
        | some u =>
            refine ⟨fun m => ⟨fun h => ?_, fun h => ?_⟩, by simp [hp]⟩
            · obtain rfl := Option.some.inj (Option.some.inj h)
              exact ⟨hp, rfl, rfl, rfl, rfl, rfl, rfl, rfl, rfl, rfl⟩
            · obtain ⟨_, h1, h2, h3, h4, h5, h6, h7, h8, h9⟩ := h
              obtain ⟨a1, a2, a3, a4, a5, a6, a7, a8, a9⟩ := m
              dsimp only at h1 h2 h3 h4 h5 h6 h7 h8 h9
              obtain rfl := Option.some.inj (Option.some.inj h9)
              subst h1 h2 h3 h4 h5 h6 h7 h8
              rfl

example : ∃ m, visualizeDrone (⟨some "/a".toList, some "/h".toList, fun _ => some .file⟩ : Env) "w".toList 1 (1, 2, 3) (0, 0, 0, 1) = some (some m) ∧
    m.mesh = "file:///a/matrice_100/meshes/Matrice_100.dae".toList := by
  refine ⟨⟨0, "local_origin".toList, .mesh, "file:///a/matrice_100/meshes/Matrice_100.dae".toList, true, false, (1, 2, 3), (0, 0, 0, 1), (1, 1, 1)⟩, ?_, rfl⟩
  decide +kernel

end World
end Avoidance
