import Verif.Polar
import Verif.HistGen

/-!
# The node that simulates a wall, `global_planner/src/nodes/mock_data_node.cpp`

Model only.  Not modelled: headers, the colour of the points, the layout of the bytes of a point (`setPointCloud2Fields`), and the printing of the path (`receivePath`, lines 49-57).
-/

namespace Avoidance.Global
variable {K : Type*} [Field K]

/-- `for (int i = a; i <= b; ++i)` -/
def intsTo (a b : ℤ) : List ℤ := (List.range (b + 1 - a).toNat).map (fun k : ℕ => a + (k : ℤ))

/-- `MockDataNode::createWall`, global_planner/src/nodes/mock_data_node.cpp:30-39: three numbers are appended to `points_` per point. -/
def createWall (dist width height : ℤ) : List K :=
  (intsTo (-width) width).foldl (fun (points : List K) (i : ℤ) =>
    (intsTo 0 height).foldl (fun (points : List K) (j : ℤ) => points ++ [(dist : K) + 1 / 2, (i : K) + 1 / 2, (j : K) + 1 / 2]) points) []

/-- One step of the loop that fills the cloud, mock_data_node.cpp:103-110: the iterators are at point `i` (of the cloud and of `points_`); `none` is an access outside of one of them. -/
def mockWrite (points : List K) (cloud : List (V3 K)) (i : ℕ) : Option (List (V3 K)) :=
  if i < cloud.length then
    match points[3 * i + 0]?, points[3 * i + 1]?, points[3 * i + 2]? with
    | some x, some y, some z => some (cloud.set i ⟨x, y, z⟩)
    | _, _, _ => none
  else none

/-- The cloud of `MockDataNode::sendMockData`, mock_data_node.cpp:59-112: `modifier.resize(100)` makes 100 points; the memory that a vector of bytes gains is zero, so all of them are at the origin at first. -/
def mockCloud (points : List K) : Option (List (V3 K)) :=
  loopM (mockWrite points) (List.replicate 100 ⟨0, 0, 0⟩) (List.range (points.length / 3))

/-- What the node publishes: mock_data_node.cpp:10-12. -/
inductive MockMsg (K : Type*) where
  | cloud (c : List (V3 K))
  | pose (p : V3 K)
  | goal (p : V3 K)

/-- `MockDataNode::sendMockData`, mock_data_node.cpp:59-121: the cloud and then the pose. -/
def sendMockData (points : List K) : Option (List (MockMsg K)) :=
  (mockCloud points).map fun c => [.cloud c, .pose ⟨1 / 2, 5 / 2, 3 / 2⟩]

/-- `MockDataNode::sendClickedPoint`, mock_data_node.cpp:41-48. -/
def sendClickedPoint : MockMsg K := .goal ⟨17 / 2, 9 / 2, 3 / 2⟩

/-- One round of the loop of the constructor, mock_data_node.cpp:17-24; the state is `num_loops` and all that was published.  Not modelled: `num_loops` overflows after 2³¹ rounds, one per second. -/
def mockRound (points : List K) (s : ℕ × List (MockMsg K)) (_ : Unit) : Option (ℕ × List (MockMsg K)) :=
  let out := if s.1 = 10 then s.2 ++ [sendClickedPoint] else s.2
  (sendMockData points).map fun d => (s.1 + 1, out ++ d)

/-- `MockDataNode::MockDataNode`, mock_data_node.cpp:5-26, after `n` rounds. -/
def mockNode (K : Type*) [Field K] (n : ℕ) : Option (ℕ × List (MockMsg K)) :=
  loopM (mockRound (createWall 5 5 6)) (0, []) (List.replicate n ())

end Avoidance.Global
