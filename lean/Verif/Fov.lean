import Verif.Polar
import Verif.Histogram

/-!
# Field-of-view functions of `avoidance/src/common.cpp`

Model only.
-/

namespace Avoidance

/-- `struct FOV`, avoidance/include/avoidance/common.h:63-70 (degrees). -/
@[ext] structure FOV (K : Type*) where
  yaw : K
  pitch : K
  hFov : K
  vFov : K

section generic
variable {K : Type*} [Field K] [LinearOrder K] [IsStrictOrderedRing K] [FloorRing K]

/-- `pointInsideFOV(const FOV&, ...)`, avoidance/src/common.cpp:20-24. -/
def pointInsideFOV1 (fov : FOV K) (p : PolarPoint K) : Bool :=
  decide (p.z ≤ wrap180 (fov.yaw + fov.hFov / 2)) &&
  decide (p.z ≥ wrap180 (fov.yaw - fov.hFov / 2)) &&
  decide (p.e ≤ fov.pitch + fov.vFov / 2) && decide (p.e ≥ fov.pitch - fov.vFov / 2)

/-- `pointInsideFOV(const std::vector<FOV>&, ...)`, avoidance/src/common.cpp:11-18. -/
def pointInsideFOV : List (FOV K) → PolarPoint K → Bool
  | [], _ => false
  | fov :: rest, p => if pointInsideFOV1 fov p then true else pointInsideFOV rest p

/-- `pointInsideYawFOV(const FOV&, ...)`, avoidance/src/common.cpp:66-69. -/
def pointInsideYawFOV1 (fov : FOV K) (p : PolarPoint K) : Bool :=
  decide (p.z ≤ wrap180 (fov.yaw + fov.hFov / 2)) &&
  decide (p.z ≥ wrap180 (fov.yaw - fov.hFov / 2))

/-- `pointInsideYawFOV(const std::vector<FOV>&, ...)`, avoidance/src/common.cpp:57-64. -/
def pointInsideYawFOV : List (FOV K) → PolarPoint K → Bool
  | [], _ => false
  | fov :: rest, p => if pointInsideYawFOV1 fov p then true else pointInsideYawFOV rest p

/-- The loop of `isInWhichFOV`, avoidance/src/common.cpp:74-83; `i` is the index of the head of
the remaining list, `retval`/`idx` the loop variables.  Returns (return value, idx). -/
def isInWhichLoop (p : PolarPoint K) : List (FOV K) → ℕ → Bool → ℤ → Bool × ℤ
  | [], _, retval, idx => (retval, idx)
  | fov :: rest, i, retval, idx =>
    if pointInsideYawFOV1 fov p then
      if retval then (false, -1)
      else isInWhichLoop p rest (i + 1) true i
    else isInWhichLoop p rest (i + 1) retval idx

/-- `isInWhichFOV`, avoidance/src/common.cpp:71-85. -/
def isInWhichFOV (fovs : List (FOV K)) (p : PolarPoint K) : Bool × ℤ :=
  isInWhichLoop p fovs 0 false (-1)

/-- `isOnEdgeOfFOV`, avoidance/src/common.cpp:87-108.  `none`: `fov_vec[idx]` out of bounds
(shown impossible). -/
def isOnEdgeOfFOV (fovs : List (FOV K)) (p : PolarPoint K) : Option (Bool × ℤ) :=
  let r := isInWhichFOV fovs p
  if r.1 then
    (if r.2 < 0 then none else fovs[r.2.toNat]?).bind fun f =>
    let z :=
      if wrap180 (p.z - f.yaw) > 0 then wrap180 (f.yaw + f.hFov / 2 + (ALPHA_RES : K) / 2)
      else wrap180 (f.yaw - f.hFov / 2 - (ALPHA_RES : K) / 2)
    let retval := !pointInsideYawFOV fovs { p with z := z }
    some (retval, if retval then r.2 else -1)
  else some (false, r.2)

/-- `scaleToFOV`, avoidance/src/common.cpp:110-119. -/
def scaleToFOV (fovs : List (FOV K)) (p : PolarPoint K) : Option K :=
  (isOnEdgeOfFOV fovs p).bind fun r =>
  if r.1 then
    (if r.2 < 0 then none else fovs[r.2.toNat]?).bind fun f =>
    let d := |f.yaw - p.z|
    let d := min d |360 - d|
    let d := min (f.hFov / 2) d
    some (1 - 2 * d / f.hFov)
  else some (if pointInsideYawFOV fovs p then 1 else 0)

/-- One point of the extreme search of `updateFOVFromMaxima`, avoidance/src/common.cpp:408-416:
(h_min, h_max, v_min, v_max) after the polar point `q` (already shifted to [0,360]/[0,180]). -/
def fovExtremes (acc : K × K × K × K) (q : PolarPoint K) : K × K × K × K :=
  (min (q.z + 180) acc.1, max (q.z + 180) acc.2.1, min (q.e + 90) acc.2.2.1,
    max (q.e + 90) acc.2.2.2)

/-- `updateFOVFromMaxima`, avoidance/src/common.cpp:405-438, on the maxima already converted by
`cartesianToPolarFCU`. -/
def updateFOVFromPolar (fov : FOV K) (maxima : List (PolarPoint K)) : FOV K :=
  let acc := maxima.foldl fovExtremes (9999, -9999, 9999, -9999)
  let h_min := acc.1
  let h_max := acc.2.1
  let v_min := acc.2.2.1
  let v_max := acc.2.2.2
  let h_diff := min (h_max - h_min) (360 - h_max + h_min)
  let v_diff := min (v_max - v_min) (360 - v_max + v_min)
  let fov :=
    if h_diff > fov.hFov then
      { fov with
        hFov := h_diff
        yaw := if h_diff ≥ h_max - h_min then wrap180 ((h_max + h_min) / 2 - 180)
               else wrap180 ((h_max + h_min) / 2) }
    else fov
  if v_diff > fov.vFov then
    { fov with vFov := v_diff, pitch := (v_max + v_min) / 2 - 90 }
  else fov

end generic

/-- `updateFOVFromMaxima`, avoidance/src/common.cpp:405-438 (with `cartesianToPolarFCU(p)` of
line 409, whose origin is (0,0,0)). -/
noncomputable def updateFOVFromMaxima (fov : FOV ℝ) (maxima : List (V3 ℝ)) : FOV ℝ :=
  updateFOVFromPolar fov (maxima.map fun p => cartesianToPolarFCU p ⟨0, 0, 0⟩)

/-- `histogramIndexYawInsideFOV(const std::vector<FOV>&, ...)`, avoidance/src/common.cpp:26-40. -/
noncomputable def histogramIndexYawInsideFOV (fovs : List (FOV ℝ)) (idx : ℤ) (position : V3 ℝ)
    (yaw_fcu_frame : ℝ) : Bool :=
  let pol_hist : PolarPoint ℝ := histogramIndexToPolar ((GRID_LENGTH_E / 2 : ℕ) : ℤ) idx ALPHA_RES 1
  let cart := polarHistogramToCartesian pol_hist position
  let pol_fcu := cartesianToPolarFCU cart position
  let pol_fcu := { pol_fcu with z := pol_fcu.z - yaw_fcu_frame }
  let plus := wrapPolar { pol_fcu with z := pol_fcu.z + (ALPHA_RES : ℝ) / 2 }
  let minus := wrapPolar { pol_fcu with z := pol_fcu.z - (ALPHA_RES : ℝ) / 2 }
  pointInsideFOV fovs plus || pointInsideFOV fovs minus

end Avoidance
