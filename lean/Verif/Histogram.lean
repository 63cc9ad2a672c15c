import Mathlib.Algebra.Order.Field.Basic
import Mathlib.Tactic.Linarith
import Mathlib.Tactic.Ring
import Mathlib.Tactic.FieldSimp

/-!
# `avoidance::Histogram` (avoidance/include/avoidance/histogram.h, avoidance/src/histogram.cpp)

Model only.  The Eigen matrix is a function on index pairs together with its dimensions; an access
outside the dimensions (undefined behaviour with `NDEBUG`) is the outcome `none`.
-/

namespace Avoidance

/-- `ALPHA_RES`, histogram.h:14. -/
def ALPHA_RES : ℕ := 6
/-- `GRID_LENGTH_Z`, histogram.h:15. -/
def GRID_LENGTH_Z : ℕ := 360 / ALPHA_RES
/-- `GRID_LENGTH_E`, histogram.h:16. -/
def GRID_LENGTH_E : ℕ := 180 / ALPHA_RES

/-- `class Histogram`, histogram.h:18-22: resolution, dimensions, distance layer
(row = elevation, column = azimuth). -/
structure Histogram (K : Type*) where
  res : ℕ
  zDim : ℕ
  eDim : ℕ
  dist : ℕ → ℕ → K

namespace Histogram
variable {K : Type*} [Field K] [LinearOrder K]

/-- Constructor and `setZero`, histogram.cpp:5-8 (`res > 0`; 360/0 traps in C++). -/
def new (res : ℕ) : Histogram K :=
  { res := res, zDim := 360 / res, eDim := 180 / res, dist := fun _ _ => 0 }

/-- `setZero`, histogram.cpp:50. -/
def setZero (h : Histogram K) : Histogram K := { h with dist := fun _ _ => 0 }

/-- One axis of `wrapIndex`, histogram.h:29-34.  C++ `%` truncates towards zero. -/
def wrapAxis (x : ℤ) (dim : ℕ) : ℤ :=
  let x := Int.tmod x dim
  if x < 0 then x + dim else x

/-- A bounds-checked matrix access `dist_(x, y)`. -/
def at? (h : Histogram K) (x y : ℤ) : Option K :=
  if 0 ≤ x ∧ x < h.eDim ∧ 0 ≤ y ∧ y < h.zDim then some (h.dist x.toNat y.toNat) else none

/-- `get_dist`, histogram.h:47-50. -/
def getDist (h : Histogram K) (x y : ℤ) : Option K :=
  h.at? (wrapAxis x h.eDim) (wrapAxis y h.zDim)

/-- `set_dist`, histogram.h:59: no wrapping, so an index outside the matrix is undefined
behaviour (`none`). -/
def setDist (h : Histogram K) (x y : ℤ) (v : K) : Option (Histogram K) :=
  if 0 ≤ x ∧ x < h.eDim ∧ 0 ≤ y ∧ y < h.zDim then
    some { h with dist := fun i j => if i = x.toNat ∧ j = y.toNat then v else h.dist i j }
  else none

/-- `upsample`, histogram.cpp:10-28.  The second component says whether `std::logic_error` was
thrown. -/
def upsample (h : Histogram K) : Histogram K × Bool :=
  if h.res ≠ ALPHA_RES * 2 then (h, true)
  else
    ({ res := h.res / 2, zDim := 2 * h.zDim, eDim := 2 * h.eDim
       dist := fun i j => h.dist (i / 2) (j / 2) }, false)

/-- `downsample`, histogram.cpp:30-48: the mean of each 2×2 block. -/
def downsample (h : Histogram K) : Histogram K × Bool :=
  if h.res ≠ ALPHA_RES then (h, true)
  else
    ({ res := 2 * h.res, zDim := h.zDim / 2, eDim := h.eDim / 2
       dist := fun i j =>
        (h.dist (2 * i) (2 * j) + h.dist (2 * i + 1) (2 * j) +
          h.dist (2 * i) (2 * j + 1) + h.dist (2 * i + 1) (2 * j + 1)) / 4 }, false)

/-- The inner loop of `isEmpty`, histogram.cpp:55-59 (row `e`, columns from `z`, `n` to go). -/
def isEmptyRow (h : Histogram K) (fltMin : K) (e : ℕ) : ℕ → ℕ → ℕ → ℕ
  | _, 0, counter => counter
  | z, n + 1, counter =>
    if counter = 0 then
      isEmptyRow h fltMin e (z + 1) n (if h.dist e z > fltMin then counter + 1 else counter)
    else counter

/-- The outer loop of `isEmpty`, histogram.cpp:54-61. -/
def isEmptyLoop (h : Histogram K) (fltMin : K) : ℕ → ℕ → ℕ → ℕ
  | _, 0, counter => counter
  | e, n + 1, counter =>
    if counter = 0 then
      isEmptyLoop h fltMin (e + 1) n (isEmptyRow h fltMin e 0 h.zDim counter)
    else counter

/-- `isEmpty`, histogram.cpp:52-62.  `fltMin` is `FLT_MIN`, the smallest positive normal float. -/
def isEmpty (h : Histogram K) (fltMin : K) : Bool :=
  isEmptyLoop h fltMin 0 h.eDim 0 == 0

end Histogram

/-- Mutating calls of the public interface. -/
inductive HistOp (K : Type*) where
  | set (e z : ℤ) (v : K)
  | setZero
  | upsample
  | downsample

/-- One public mutating call; `none` is undefined behaviour. -/
def Histogram.step {K : Type*} [Field K] [LinearOrder K] (h : Histogram K) :
    HistOp K → Option (Histogram K)
  | .set e z v => h.setDist e z v
  | .setZero => some h.setZero
  | .upsample => some h.upsample.1
  | .downsample => some h.downsample.1

/-- A sequence of public mutating calls. -/
def Histogram.run {K : Type*} [Field K] [LinearOrder K] (h : Histogram K) :
    List (HistOp K) → Option (Histogram K)
  | [] => some h
  | op :: ops => (h.step op).bind fun h' => h'.run ops

end Avoidance
