import Verif.Polar

/-!
# Floats with non-finite values and the point-cloud filter of `avoidance/src/common.cpp`

Model only.
-/

namespace Avoidance

/-- A C++ `float`/`double` for code that branches on non-finite values: an exact finite
number, NaN, or an infinity (`true` = +∞).  Rounding is not modelled. -/
inductive Flt (K : Type*) where
  | fin (x : K)
  | nan
  | inf (pos : Bool)
deriving DecidableEq, Repr

namespace Flt
variable {K : Type*}

/-- `std::isfinite`. -/
def isFinite : Flt K → Bool
  | fin _ => true
  | _ => false

/-- `std::isnan`. -/
def isNaN : Flt K → Bool
  | nan => true
  | _ => false

/-- IEEE `<`: false as soon as one side is NaN. -/
def lt [LinearOrder K] : Flt K → Flt K → Bool
  | fin a, fin b => decide (a < b)
  | fin _, inf p => p
  | inf p, fin _ => !p
  | inf p, inf q => !p && q
  | _, _ => false

/-- The number a finite float denotes. -/
def val? : Flt K → Option K
  | fin x => some x
  | _ => none

end Flt

section
variable {K : Type*} [LinearOrder K] [NatCast K] [Neg K]

/-- The three `std::isfinite` tests of `removeNaNAndGetMaxima`,
avoidance/src/common.cpp:346. -/
def finitePoint (p : V3 (Flt K)) : Bool := p.x.isFinite && p.y.isFinite && p.z.isFinite

/-- A running extreme `x_max`, `i_x_max` (etc.), avoidance/src/common.cpp:343-344. -/
structure Track (K : Type*) where
  val : Flt K
  idx : ℤ

/-- `if (cloud.points[j].x > x_max) { x_max = cloud.points[j].x; i_x_max = j; }`
(avoidance/src/common.cpp:350-378), with the comparison as a parameter: `better c v` is
`c > v` for the three maxima and `c < v` for the three minima. -/
def Track.update (better : Flt K → Flt K → Bool) (c : Flt K) (j : ℕ) (t : Track K) : Track K :=
  if better c t.val then ⟨c, j⟩ else t

/-- Local variables of `removeNaNAndGetMaxima`, avoidance/src/common.cpp:341-344. -/
structure SanState (K : Type*) where
  points : List (V3 (Flt K))
  j : ℕ
  xmax : Track K
  ymax : Track K
  zmax : Track K
  xmin : Track K
  ymin : Track K
  zmin : Track K

/-- `a > b`. -/
def fgt (a b : Flt K) : Bool := b.lt a

/-- Initial values, avoidance/src/common.cpp:342-344. -/
def sanInit (cloud : List (V3 (Flt K))) : SanState K :=
  let lo : Track K := ⟨.fin (-((9999 : ℕ) : K)), -1⟩
  let hi : Track K := ⟨.fin ((9999 : ℕ) : K), -1⟩
  ⟨cloud, 0, lo, lo, lo, hi, hi, hi⟩

/-- One iteration of the loop, avoidance/src/common.cpp:345-381.  The in-place assignment
`points[j] = points[i]` is `List.set`; the six comparisons read `points[j]` just written,
which is `p`. -/
def sanStep (s : SanState K) (i : ℕ) : SanState K :=
  match s.points[i]? with
  | none => s
  | some p =>
    if finitePoint p then
      { points := s.points.set s.j p
        j := s.j + 1
        xmax := s.xmax.update fgt p.x s.j
        ymax := s.ymax.update fgt p.y s.j
        zmax := s.zmax.update fgt p.z s.j
        xmin := s.xmin.update Flt.lt p.x s.j
        ymin := s.ymin.update Flt.lt p.y s.j
        zmin := s.zmin.update Flt.lt p.z s.j }
    else s

/-- `if (i_x_max >= 0) maxima.push_back(cloud.points[i_x_max]);`
avoidance/src/common.cpp:394-399; the outer option is undefined behaviour (an index past
the end of the resized cloud). -/
def pushPick (points : List (V3 (Flt K))) (t : Track K) : Option (List (V3 (Flt K))) :=
  if t.idx ≥ 0 then (points[t.idx.toNat]?).map (fun p => [p]) else some []

/-- `removeNaNAndGetMaxima`, avoidance/src/common.cpp:341-403.  Result: the filtered cloud
and the extreme points; `none` would be an out-of-bounds read.  Headers, `height`, `width`
and `is_dense` are not modelled. -/
def removeNaNAndGetMaxima (cloud : List (V3 (Flt K))) :
    List (V3 (Flt K)) × Option (List (V3 (Flt K))) :=
  let s := (List.range cloud.length).foldl sanStep (sanInit cloud)
  let pts := s.points.take s.j
  (pts,
    (pushPick pts s.xmax).bind fun a => (pushPick pts s.ymax).bind fun b =>
    (pushPick pts s.zmax).bind fun c => (pushPick pts s.xmin).bind fun d =>
    (pushPick pts s.ymin).bind fun e => (pushPick pts s.zmin).bind fun f =>
      some (a ++ b ++ c ++ d ++ e ++ f))

end
end Avoidance
