import Verif.Fov
import Verif.CloudProps

/-!
# `processPointcloud`, local_planner/src/nodes/planner_functions.cpp:12-76

Model only.
-/

namespace Avoidance

/-- `pcl::PointXYZI`: a remembered obstacle point and its age (the intensity channel). -/
structure AgedPoint (K : Type*) where
  p : V3 K
  age : K

/-- Parameters of one call. -/
structure CloudParams where
  fov : List (FOV ℝ)
  yaw_deg : ℝ
  pitch_deg : ℝ
  position : V3 ℝ
  min_range : ℝ
  max_range : ℝ
  max_age : ℝ
  elapsed : ℝ
  /-- `min_num_points_per_cell` -/
  min_points : ℤ

/-- `(position - p).squaredNorm()`. -/
def distSq {K : Type*} [Ring K] (a b : V3 K) : K :=
  (a.x - b.x) * (a.x - b.x) + (a.y - b.y) * (a.y - b.y) + (a.z - b.z) * (a.z - b.z)

noncomputable section

/-- Index of the 2° cell a point falls into (`ALPHA_RES / SCALE_FACTOR` = 2),
planner_functions.cpp:37-38 and 52, 57. -/
def cellOf (c : CloudParams) (p : V3 ℝ) : ℤ × ℤ :=
  polarToHistogramIndex (cartesianToPolarHistogram p c.position) (ALPHA_RES / 3)

/-- Polar direction of a remembered point in the vehicle's frame, planner_functions.cpp:53-56. -/
def bodyDirection (c : CloudParams) (p : V3 ℝ) : PolarPoint ℝ :=
  let q := cartesianToPolarFCU p c.position
  wrapPolar ⟨q.e - c.pitch_deg, q.z - c.yaw_deg, q.r⟩

/-- `histogram_points_counter` and `final_cloud`.  The counter matrix is a function on cells
(indices are always inside the 90 × 180 matrix, `C24_cells_in_bounds`). -/
structure CloudState where
  counter : ℤ × ℤ → ℤ
  out : List (AgedPoint ℝ)

/-- Body of the loop over the new points, planner_functions.cpp:31-46.  A NaN coordinate fails the
check of line 33; an infinite one makes `distanceSq` infinite (or NaN), which fails the range
check of line 35: both are skipped, so only points with finite coordinates go on. -/
def newPoint (c : CloudParams) (s : CloudState) (xyz : V3 (Flt ℝ)) : CloudState :=
  match V3.finite? xyz with
  | none => s
  | some p =>
    let d := distSq c.position p
    if c.min_range * c.min_range < d ∧ d < c.max_range * c.max_range then
      let ind := cellOf c p
      let n := s.counter ind + 1
      { counter := fun k => if k = ind then n else s.counter k
        out := if n = c.min_points then s.out ++ [⟨p, 0⟩] else s.out }
    else s

/-- Body of the loop over the remembered points, planner_functions.cpp:49-70. -/
def oldPoint (c : CloudParams) (s : CloudState) (o : AgedPoint ℝ) : CloudState :=
  if distSq c.position o.p < c.max_range * c.max_range then
    let ind := cellOf c o.p
    if s.counter ind < c.min_points ∧ o.age < c.max_age ∧
        pointInsideFOV c.fov (bodyDirection c o.p) = false then
      { counter := fun k => if k = ind then c.min_points else s.counter k
        out := s.out ++ [⟨o.p, o.age + c.elapsed⟩] }
    else s
  else s

/-- `processPointcloud`, planner_functions.cpp:12-76.  `none`: `complete_cloud[0]` of an empty
vector (line 72, undefined behaviour). -/
def processPointcloud (c : CloudParams) (old : List (AgedPoint ℝ))
    (clouds : List (List (V3 (Flt ℝ)))) : Option (List (AgedPoint ℝ)) :=
  let s := clouds.foldl (fun s cloud => cloud.foldl (newPoint c) s) ⟨fun _ => 0, []⟩
  let s := old.foldl (oldPoint c) s
  if clouds = [] then none else some s.out

end
end Avoidance
