import Mathlib.Data.List.Basic

/-!
# Model: the world shown in RViz (avoidance/src/rviz_world_loader.cpp, avoidance/include/avoidance/rviz_world_loader.h)

Strings are lists of characters. Numbers are values of any type `N` (they are only copied). Parameters: the environment variables, what `stat`
says of a path, and what `YAML::Load` makes of the file. Left out: time stamps, the logger.
-/

namespace Avoidance
namespace World

/-- What `stat` reports of an existing path (symbolic links are followed). -/
inductive Kind
  | file | socket | directory | device | fifo
deriving DecidableEq

/-- `s.st_mode & S_IFREG` (rviz_world_loader.cpp 45): the bit of regular files (0100000) is also set for sockets (0140000). -/
def Kind.regBit : Kind → Bool
  | .file => true
  | .socket => true
  | _ => false

/-- The environment: `getenv` (rviz_world_loader.cpp 34-35; `none` is a null pointer) and `stat`. -/
structure Env where
  modelPath : Option (List Char)
  home : Option (List Char)
  stat : List Char → Option Kind

/-- The pieces read by `getline(all_locations, current_location, ':')` (rviz_world_loader.cpp 40), with the piece read so far. -/
def pieces : List Char → List Char → List (List Char)
  | cur, [] => if cur = [] then [] else [cur]
  | cur, c :: rest => if c = ':' then cur :: pieces [] rest else pieces (cur ++ [c]) rest

/-- The loop of rviz_world_loader.cpp 40-51. -/
def tryLocations (stat : List Char → Option Kind) (uri : List Char) : List (List Char) → Option (List Char)
  | [] => none
  | d :: rest => match stat (d ++ uri) with
    | some k => if k.regBit = true then some ("file://".toList ++ d ++ uri) else tryLocations stat uri rest
    | none => tryLocations stat uri rest

/-- `resolveUri`, rviz_world_loader.cpp 32-53. Outer `none`: undefined (a null pointer is used as a string) or an exception (`substr` behind the end); inner
`none`: it returns 1. -/
def resolveUri (E : Env) (uri : List Char) : Option (Option (List Char)) :=
  if uri.length < 7 then none
  else match E.modelPath, E.home with
    | some p, some h => some (tryLocations E.stat (uri.drop 7) (pieces [] (p ++ ":".toList ++ h ++ "/.gazebo/models".toList)))
    | _, _ => none

/-- `std::string::find(t) != npos` (rviz_world_loader.cpp 72). -/
def occurs (t : List Char) : List Char → Bool
  | [] => t.isEmpty
  | c :: s => t.isPrefixOf (c :: s) || occurs t s

/-- `world_object`, rviz_world_loader.h 20-28. -/
structure Obj (N : Type) where
  type : List Char
  name : List Char
  frame : List Char
  mesh : List Char
  position : N × N × N
  orientation : N × N × N × N
  scale : N × N × N

/-- The types of markers used (visualization_msgs/Marker). -/
inductive Shape
  | mesh | cube | sphere | cylinder
deriving DecidableEq

/-- What is set of `visualization_msgs::Marker`: rviz_world_loader.cpp 67-118. -/
structure Marker (N : Type) where
  id : ℕ
  frame : List Char
  shape : Shape
  mesh : List Char
  /-- `mesh_use_embedded_materials` -/
  embedded : Bool
  /-- half-transparent grey (0.5, 0.5, 0.5, 0.9); otherwise the colour is left at 0 -/
  grey : Bool
  position : N × N × N
  orientation : N × N × N × N
  scale : N × N × N
deriving DecidableEq

/-- How `visualizeRVIZWorld` can end: it publishes and returns 0, it returns 1 without publishing, an exception leaves the callback (which ends the node), or undefined
behaviour. -/
inductive Outcome (N : Type)
  | published (ms : List (Marker N))
  | refused
  | thrown
  | undefined

/-- Shape and mesh of an object: rviz_world_loader.cpp 71-102. `none`: undefined; `some none`: returns 1. -/
def shapeOf {N : Type} (E : Env) (o : Obj N) : Option (Option (Shape × List Char × Bool × Bool)) :=
  if o.type = "mesh".toList then
    if occurs "model://".toList o.mesh = true then
      match resolveUri E o.mesh with
      | none => none
      | some none => some none
      | some (some u) => some (some (.mesh, u, true, false))
    else some (some (.mesh, o.mesh, true, false))
  else if o.type = "cube".toList then some (some (.cube, [], false, true))
  else if o.type = "sphere".toList then some (some (.sphere, [], false, true))
  else if o.type = "cylinder".toList then some (some (.cylinder, [], false, true))
  else some none

/-- The loop of `visualizeRVIZWorld`, rviz_world_loader.cpp 57-119, over the elements of the document: `none` is an element that cannot be converted (a missing or
misspelt field: yaml-cpp throws). -/
def loadLoop {N : Type} (E : Env) : ℕ → List (Marker N) → List (Option (Obj N)) → Outcome N
  | _, ms, [] => .published ms
  | _, _, none :: _ => .thrown
  | counter, ms, some o :: rest => match shapeOf E o with
    | none => .undefined
    | some none => .refused
    | some (some (s, mesh, emb, grey)) =>
      loadLoop E (counter + 1)
        (ms ++ [⟨counter + 1, o.frame, s, mesh, emb, grey, o.position, o.orientation, o.scale⟩]) rest

/-- What `YAML::Load` makes of the file (rviz_world_loader.cpp 56-57). -/
inductive Doc (N : Type)
  /-- the file cannot be opened, is empty or holds a scalar: a node without elements -/
  | empty
  /-- a sequence -/
  | objects (l : List (Option (Obj N)))
  /-- a map with at least one entry: the elements are pairs, and `node["type"]` throws -/
  | map
  /-- not YAML: `Load` throws -/
  | broken

/-- `visualizeRVIZWorld`, rviz_world_loader.cpp 55-128. -/
def visualizeWorld {N : Type} (E : Env) : Doc N → Outcome N
  | .empty => loadLoop E 0 [] []
  | .objects l => loadLoop E 0 [] l
  | .map => .thrown
  | .broken => .thrown

/-- `loopCallback`, rviz_world_loader.cpp 25-30: nothing is done without a path. -/
def loopCallback {N : Type} (E : Env) (path : List Char) (doc : Doc N) : Option (Outcome N) := if path = [] then none else some (visualizeWorld E doc)

/-- The drone: `visualizeDrone`, rviz_world_loader.cpp 130-160, called from `positionCallback` 162-169 (`size` is 1.5). Outer `none`: undefined; inner `none`: nothing is
published. -/
def visualizeDrone {N : Type} (E : Env) (path : List Char) (size : N) (p : N × N × N) (q : N × N × N × N) : Option (Option (Marker N)) :=
  if path = [] then some none
  else match resolveUri E "model://matrice_100/meshes/Matrice_100.dae".toList with
    | none => none
    | some none => some none
    | some (some u) => some (some ⟨0, "local_origin".toList, .mesh, u, true, false, p, q, (size, size, size)⟩)

/-- What RViz shows of the messages received: markers (action ADD, no lifetime, no namespace) replace those with the same id and stay otherwise (documentation of
visualization_msgs/Marker; rviz_world_loader.cpp 115-117). -/
def show1 {N : Type} (shown : ℕ → Option (Marker N)) (ms : List (Marker N)) : ℕ → Option (Marker N) := fun i =>
  match ms.reverse.find? (fun m => m.id == i) with
  | some m => some m
  | none => shown i

/-- The world on the screen after several ticks of the timer (the node has ended after an exception). -/
def screen {N : Type} (E : Env) : (ℕ → Option (Marker N)) → List (Doc N) → ℕ → Option (Marker N)
  | shown, [] => shown
  | shown, d :: rest => match visualizeWorld E d with
    | .published ms => screen E (show1 shown ms) rest
    | .refused => screen E shown rest
    | _ => shown

end World
end Avoidance
