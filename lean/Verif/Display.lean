import Verif.RunPlanner

/-!
# What the local planner shows to the operator: images and markers
(local_planner/src/nodes/local_planner.cpp 102-120, planner_functions.cpp 204-229, local_planner_visualization.cpp)

Model only.  `none` is an access outside a vector or a conversion of a float to a byte that the language leaves undefined.
Time stamps, frames, scales and colours that are constants are left out.
-/

namespace Avoidance

section
variable {K : Type*} [Field K] [LinearOrder K]

/-- `std::min(a, b)`: `b < a ? b : a`, so NaN as second argument gives the first. -/
def Flt.stdMin (a b : Flt K) : Flt K := if b.lt a then b else a

/-- `std::max(a, b)`: `a < b ? b : a`. -/
def Flt.stdMax (a b : Flt K) : Flt K := if a.lt b then b else a

/-- `255.f * x / m` of finite numbers; a zero `m` counts as positive zero. -/
def scaled (x m : K) : Flt K :=
  if m = 0 then (if x = 0 then .nan else .inf (decide (0 < x))) else .fin (255 * x / m)

/-- `dist > 0.01f ? 255.f - 255.f * dist / max_sensor_range_ : 0.f`, local_planner.cpp:110. -/
def depthVal (dist max_range : K) : Flt K :=
  if dist > 1 / 100 then
    (match scaled dist max_range with
      | .fin q => .fin (255 - q)
      | .nan => .nan
      | .inf p => .inf !p)
  else .fin 0

variable [FloorRing K]

/-- The conversion of a float to `uint8_t` (or to `int` and then to `uint8_t`): truncation; undefined for NaN, infinities and
numbers that do not fit (planner_functions.cpp:219-220, local_planner.cpp:111). -/
def toByte : Flt K → Option ℕ
  | .fin x => if 0 ≤ x ∧ x < 256 then some ⌊x⌋.toNat else none
  | _ => none

/-- `static_cast<uint8_t>(std::max(0.0f, std::min(255.f, x)))`, planner_functions.cpp:219-220, local_planner.cpp:111. -/
def clampByte (x : Flt K) : Option ℕ := toByte (Flt.stdMax (.fin 0) (Flt.stdMin (.fin 255) x))

/-- The cells in the order of the loops of both images: elevation downwards, azimuth upwards, local_planner.cpp:107-108,
planner_functions.cpp:215-216. -/
def imageCells : List (ℕ × ℕ) :=
  (List.range GRID_LENGTH_E).reverse.flatMap fun e => (List.range GRID_LENGTH_Z).map fun z => (e, z)

/-- `generateHistogramImage`, local_planner.cpp:102-114. -/
def histogramImage (h : Histogram K) (max_range : K) : Option (List ℕ) :=
  loopM (fun (img : List ℕ) (c : ℕ × ℕ) =>
    (h.getDist c.1 c.2).bind fun d => (clampByte (depthVal d max_range)).map fun b => img ++ [b]) [] imageCells

/-- Eigen's `maxCoeff` of a matrix of the size of the histogram. -/
def maxCoeff (m : ℕ → ℕ → K) : K := imageCells.foldl (fun a c => max a (m c.1 c.2)) (m 0 0)

/-- `generateCostImage`, planner_functions.cpp:209-224. -/
def costImage (cost_matrix distance_matrix : ℕ → ℕ → K) : Option (List ℕ) :=
  let max_val := max (maxCoeff cost_matrix) (maxCoeff distance_matrix)
  loopM (fun (img : List ℕ) (c : ℕ × ℕ) =>
    (clampByte (scaled (distance_matrix c.1 c.2) max_val)).bind fun r =>
    (clampByte (scaled (cost_matrix c.1 c.2) max_val)).map fun g => img ++ [r, g, 0]) [] imageCells

/-- `colorImageIndex`, planner_functions.cpp:226-229. -/
def colorImageIndex (e_ind z_ind color : ℤ) : ℤ := (((GRID_LENGTH_E : ℤ) - e_ind - 1) * GRID_LENGTH_Z + z_ind) * 3 + color

end

/-- `cost_img.data[i] = 255.f`, local_planner_visualization.cpp:295-304. -/
def setByte (data : List ℕ) (i : ℤ) : Option (List ℕ) :=
  if 0 ≤ i ∧ i < data.length then some (data.set i.toNat 255) else none

/-- `sensor_msgs::Image` without header: `channels` stands for the encoding (rgb8 is 3, mono8 is 1 byte per pixel). -/
structure Image where
  height : ℕ
  width : ℕ
  channels : ℕ
  step : ℕ
  data : List ℕ

/-- A line of a `LINE_LIST` marker. -/
structure Segment where
  a : V3 ℝ
  b : V3 ℝ

/-- A triangle of a `TRIANGLE_LIST` marker, with the red and green parts of its colour. -/
structure Triangle where
  apex : V3 ℝ
  p1 : V3 ℝ
  p2 : V3 ℝ
  red : ℝ
  green : ℝ

noncomputable section

/-- The two matrices that `generateCostImage` is called with inside `getCostMatrix`, planner_functions.cpp:128-205: other cost,
smoothed distance cost. -/
def costLayers (h : Histogram ℝ) (goal position velocity : V3 ℝ) (params : CostParams) (smoothing_margin_degrees : ℝ)
    (closest_pt : V3 ℝ) (max_sensor_range min_sensor_range : ℝ) : Option ((ℕ → ℕ → ℝ) × (ℕ → ℕ → ℝ)) :=
  (isObstacleFacingGoal h goal position max_sensor_range min_sensor_range).bind fun facing =>
  let cost := rawCost h goal position velocity params closest_pt facing
  (fillMatrix GRID_LENGTH_E GRID_LENGTH_Z stepSize fun e z => (cost e z).map Prod.snd).bind fun cost_matrix =>
  (fillMatrix GRID_LENGTH_E GRID_LENGTH_Z stepSize fun e z => (cost e z).map Prod.fst).bind fun distance_matrix =>
  (withoutNaN GRID_LENGTH_E GRID_LENGTH_Z cost_matrix).bind fun cost_matrix =>
  (withoutNaN GRID_LENGTH_E GRID_LENGTH_Z distance_matrix).bind fun distance_matrix =>
  let smooth_radius := ⌈smoothing_margin_degrees / (ALPHA_RES : ℕ)⌉.toNat
  (smoothPolarMatrix distance_matrix GRID_LENGTH_E GRID_LENGTH_Z smooth_radius).map fun distance_matrix =>
    (cost_matrix, distance_matrix)

/-- `histogram_image_data_` and `cost_image_data_` as `determineStrategy` leaves them, local_planner.cpp:98-120, 136-139: the cost
image is black when the histogram is empty.  `s` is the planner after the call. -/
def LPlanner.images (s : LPlanner) : Option (List ℕ × List ℕ) :=
  (histogramImage s.histogram s.max_sensor_range).bind fun hist =>
  if !s.histogram.isEmpty fltMin then
    (costLayers s.histogram s.goal s.position s.velocity s.cost s.smoothing_margin s.closest_pt s.max_sensor_range
      s.min_sensor_range).bind fun l => (costImage l.1 l.2).map fun c => (hist, c)
  else some (hist, List.replicate (3 * GRID_LENGTH_E * GRID_LENGTH_Z) 0)

/-- The azimuth at which `publishDataImages` marks the heading, local_planner_visualization.cpp:281-283.  (`getYawFromQuaternion`
returns degrees.) -/
def drawnHeading (q : Quat ℝ) : ℝ := -(getYawFromQuaternion q) * 180 / Real.pi + 90

/-- `publishDataImages`, local_planner_visualization.cpp:265-319: the histogram image and the cost image.  (Positions are numbers
here; `newest_waypoint_position_` is uninitialised until the first setpoint.) -/
def publishDataImages (histogram_image_data cost_image_data : List ℕ) (waypoint adapted_waypoint position : V3 ℝ)
    (orientation : Quat ℝ) : Option (Image × Image) :=
  let heading := polarToHistogramIndex (⟨0, drawnHeading orientation, 1⟩ : PolarPoint ℝ) ALPHA_RES
  let wp := polarToHistogramIndex (cartesianToPolarHistogram waypoint position) ALPHA_RES
  let awp := polarToHistogramIndex (cartesianToPolarHistogram adapted_waypoint position) ALPHA_RES
  (if cost_image_data.length = 3 * GRID_LENGTH_E * GRID_LENGTH_Z then
    loopM setByte cost_image_data
      [colorImageIndex heading.2 heading.1 2,
       colorImageIndex wp.2 wp.1 0, colorImageIndex wp.2 wp.1 1, colorImageIndex wp.2 wp.1 2,
       colorImageIndex awp.2 awp.1 1, colorImageIndex awp.2 awp.1 2]
   else some cost_image_data).map fun data =>
  (⟨GRID_LENGTH_E, GRID_LENGTH_Z, 1, 255, histogram_image_data⟩,
   ⟨GRID_LENGTH_E, GRID_LENGTH_Z, 3, 3 * GRID_LENGTH_Z, data⟩)

/-- The lines of `tree_marker` in `publishTree`, local_planner_visualization.cpp:226-234. -/
def treeSegments (tree : List TreeNode) (closed_set : List ℕ) : Option (List Segment) :=
  loopM (fun (l : List Segment) node_nr =>
    (tree[node_nr]?).bind fun n => (tree[n.origin]?).map fun o => l ++ [⟨n.pos, o.pos⟩]) [] closed_set

/-- The lines of `path_marker` in `publishTree`, local_planner_visualization.cpp:236-240. -/
def pathSegments (path : List (V3 ℝ)) : Option (List Segment) :=
  loopM (fun (l : List Segment) i =>
    (path[i - 1]?).bind fun a => (path[i]?).map fun b => l ++ [⟨a, b⟩]) [] (List.range' 1 (path.length - 1))

/-- `std::min(scan.range_max, scan.ranges[i])`, local_planner_visualization.cpp:136-137; `none` is NaN, and then the first argument is
the result. -/
def shownRange (range_max : ℝ) : Option ℝ → ℝ
  | none => range_max
  | some r => if r < range_max then r else range_max

/-- The colour (red, green) of a triangle, local_planner_visualization.cpp:139-152. -/
def scanColour (range_max : ℝ) : Option ℝ → ℝ × ℝ
  | none => (1, 0)
  | some r => if r > range_max then (0, 1) else (1 - r / range_max, r / range_max)

/-- The triangles of `publishRangeScan`, local_planner_visualization.cpp:135-161 (`angle_increment` is `ALPHA_RES` degrees in radians,
local_planner.cpp:154, and is converted back). -/
def rangeTriangles (ranges : List (Option ℝ)) (range_max : ℝ) (position : V3 ℝ) : List Triangle :=
  ranges.zipIdx.map fun ri =>
    let p1 : PolarPoint ℝ := ⟨0, radToDeg * ((ri.2 : ℝ) + 1 / 2) * ((ALPHA_RES : ℕ) * Real.pi / 180), shownRange range_max ri.1⟩
    let p2 : PolarPoint ℝ := ⟨0, radToDeg * ((ri.2 : ℝ) - 1 / 2) * ((ALPHA_RES : ℕ) * Real.pi / 180), shownRange range_max ri.1⟩
    ⟨position, polarHistogramToCartesian p1 position, polarHistogramToCartesian p2 position, (scanColour range_max ri.1).1,
      (scanColour range_max ri.1).2⟩

/-- The four sides of one camera in `publishFOV`, local_planner_visualization.cpp:69-110: each is the vehicle (the origin of frame
`fcu`) and two corners of the view at `max_range`. -/
def fovTriangles (f : FOV ℝ) (max_range : ℝ) : List (V3 ℝ × V3 ℝ × V3 ℝ) :=
  let o : V3 ℝ := ⟨0, 0, 0⟩
  let corner (e z : ℝ) : V3 ℝ := polarFCUToCartesian ⟨e, z, max_range⟩ o
  let p1 := corner (f.pitch - f.vFov / 2) (f.yaw + f.hFov / 2)
  let p2 := corner (f.pitch + f.vFov / 2) (f.yaw + f.hFov / 2)
  let p3 := corner (f.pitch + f.vFov / 2) (f.yaw - f.hFov / 2)
  let p4 := corner (f.pitch - f.vFov / 2) (f.yaw - f.hFov / 2)
  [(o, p1, p2), (o, p2, p3), (o, p3, p4), (o, p4, p1)]

end

end Avoidance
