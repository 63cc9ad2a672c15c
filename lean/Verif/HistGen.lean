import Verif.ProcessCloud

/-!
# `generateNewHistogram`, `compressHistogramElevation`
(local_planner/src/nodes/planner_functions.cpp:79-126) and `generateHistogramImage`
(local_planner/src/nodes/local_planner.cpp:102-114)

Model only.  `none` is an out-of-bounds access.
-/

namespace Avoidance
open Histogram

/-- The cells of a double loop `for e in es, for z in [0, zn)`. -/
def cellList (es : List ℕ) (zn : ℕ) : List (ℕ × ℕ) :=
  es.flatMap (fun e => (List.range zn).map (fun z => (e, z)))

/-- `counter` matrix together with the histogram being filled. -/
structure HistState where
  hist : Histogram ℝ
  counter : ℤ × ℤ → ℕ

noncomputable section

/-- Body of the first loop, planner_functions.cpp:83-91.  (The counter matrix is a function on
(elevation, azimuth) index pairs; the bounds are those of the histogram access of line 90, which
uses the same indices.) -/
def addPoint (position : V3 ℝ) (s : HistState) (p : V3 ℝ) : Option HistState :=
  let p_pol := cartesianToPolarHistogram p position
  let dist := p_pol.r
  let ind := polarToHistogramIndex p_pol ALPHA_RES
  let counter := fun k => if k = (ind.2, ind.1) then s.counter k + 1 else s.counter k
  (s.hist.getDist ind.2 ind.1).bind fun old =>
  (s.hist.setDist ind.2 ind.1 (old + dist)).map fun h => ⟨h, counter⟩

/-- Body of the normalising loop, planner_functions.cpp:94-101. -/
def normaliseCell (counter : ℤ × ℤ → ℕ) (h : Histogram ℝ) (c : ℕ × ℕ) : Option (Histogram ℝ) :=
  if counter (c.1, c.2) > 0 then
    (h.getDist c.1 c.2).bind fun d => h.setDist c.1 c.2 (d / (counter (c.1, c.2) : ℝ))
  else h.setDist c.1 c.2 0

/-- A loop whose body may hit an undefined access. -/
def loopM {S A : Type*} (f : S → A → Option S) : S → List A → Option S
  | s, [] => some s
  | s, a :: l => (f s a).bind fun s' => loopM f s' l

/-- `generateNewHistogram`, planner_functions.cpp:79-103. -/
def generateNewHistogram (h : Histogram ℝ) (cloud : List (AgedPoint ℝ)) (position : V3 ℝ) :
    Option (Histogram ℝ) :=
  (loopM (addPoint position) ⟨h, fun _ => 0⟩ (cloud.map (·.p))).bind fun s =>
  loopM (normaliseCell s.counter) s.hist (cellList (List.range GRID_LENGTH_E) GRID_LENGTH_Z)

/-- Height of the obstacle a cell stands for above the vehicle, planner_functions.cpp:117-119:
`|position.z - obstacle_cartesian.z|`. -/
def cellHeight (position : V3 ℝ) (e z : ℕ) (d : ℝ) : ℝ :=
  |position.z - (polarHistogramToCartesian (histogramIndexToPolar e z ALPHA_RES d) position).z|

/-- Body of the loop of `compressHistogramElevation`, planner_functions.cpp:114-124. -/
def compressCell (input : Histogram ℝ) (position : V3 ℝ) (new : Histogram ℝ) (c : ℕ × ℕ) :
    Option (Histogram ℝ) :=
  (input.getDist c.1 c.2).bind fun d =>
  (new.getDist 0 c.2).bind fun cur =>
  if d > 0 then
    if cellHeight position c.1 c.2 d < 1 ∧ (d < cur ∨ cur = 0) then new.setDist 0 c.2 d
    else some new
  else some new

/-- Rows scanned: `p_ind_lower.y() .. p_ind_upper.y()` for ∓10° (planner_functions.cpp:106-113). -/
def compressRows : List ℕ :=
  let lower := (polarToHistogramIndex (⟨-1 * 20 / 2, 0, 0⟩ : PolarPoint ℝ) ALPHA_RES).2
  let upper := (polarToHistogramIndex (⟨20 / 2, 0, 0⟩ : PolarPoint ℝ) ALPHA_RES).2
  List.range' lower.toNat (upper + 1 - lower).toNat

/-- `compressHistogramElevation`, planner_functions.cpp:105-126. -/
def compressHistogramElevation (new input : Histogram ℝ) (position : V3 ℝ) : Option (Histogram ℝ) :=
  loopM (compressCell input position) new (cellList compressRows GRID_LENGTH_Z)

end
end Avoidance
