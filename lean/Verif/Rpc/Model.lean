import Verif.Base.Err
import Verif.Base.Nan
import Mathlib.Algebra.Field.Basic
import Mathlib.Algebra.BigOperators.Fin
import Mathlib.Algebra.BigOperators.Group.List.Basic

/-!
# RPC cameras and their refinement
-/

set_option autoImplicit false

namespace Verif.RpcCam

variable {K : Type} [Field K] [DecidableEq K]

/-- The items of an RPC parameter dictionary that are used.  The lists of 20 coefficients are functions.
`err` stands for all other items (`err_bias`, `err_rand`). -/
structure Rpc (K : Type) where
  longOff : K
  latOff : K
  heightOff : K
  longScale : K
  latScale : K
  heightScale : K
  sampOff : K
  lineOff : K
  sampScale : K
  lineScale : K
  sampNum : Fin 20 → K
  sampDen : Fin 20 → K
  lineNum : Fin 20 → K
  lineDen : Fin 20 → K
  err : Option K × Option K

/-- orthority/camera.py:464-476 `poly` in `RpcCamera.world_to_pixel`, for numbers. -/
def poly {A : Type} [Add A] [Mul A] (x y z : A) (c : Fin 20 → A) : A :=
  let res := c 0 + x * (c 1 + y * (c 4 + z * c 10) + z * c 5 + x * (c 7 + x * c 11 + y * c 14 + z * c 17))
  let res := res + y * (c 2 + c 6 * z + y * (c 8 + x * c 12 + y * c 15 + z * c 18))
  res + z * (c 3 + z * (c 9 + x * c 13 + y * c 16 + z * c 19))

/-- orthority/camera.py:478-489: `RpcCamera.world_to_pixel` of a point in RPC coordinates (lon, lat, height), with
NaN propagation.  Pixel coordinates are (j, i). -/
def evalPoint (r : Rpc K) (p : Fl K × Fl K × Fl K) : Fl K × Fl K :=
  let x := (p.1 - .val r.longOff) / .val r.longScale
  let y := (p.2.1 - .val r.latOff) / .val r.latScale
  let z := (p.2.2 - .val r.heightOff) / .val r.heightScale
  let c (f : Fin 20 → K) : Fin 20 → Fl K := fun i => .val (f i)
  let i := poly x y z (c r.lineNum) / poly x y z (c r.lineDen)
  let j := poly x y z (c r.sampNum) / poly x y z (c r.sampDen)
  (j * .val r.sampScale + .val r.sampOff, i * .val r.lineScale + .val r.lineOff)

/-- Numbers of a point without NaN. -/
def finite : Fl K × Fl K × Fl K → Option (K × K × K)
  | (.val x, .val y, .val z) => some (x, y, z)
  | _ => none

/-- `xyz[:, mask]`. -/
def gather (pts : List (Fl K × Fl K × Fl K)) : List (K × K × K) := pts.filterMap finite

/-- `xyz_ = np.full(nan); xyz_[:, mask] = vals`. -/
def scatter : List (Fl K × Fl K × Fl K) → List (Fl K × Fl K × Fl K) → List (Fl K × Fl K × Fl K)
  | [], _ => []
  | p :: ps, vs => match finite p with
    | none => (.nan, .nan, .nan) :: scatter ps vs
    | some _ => match vs with
      | v :: vs => v :: scatter ps vs
      | [] => (.nan, .nan, .nan) :: scatter ps []

/-- orthority/camera.py:450-489 `RpcCamera.world_to_pixel`: all points; `warp` is `rasterio.warp.transform` to RPC
coordinates, of one point, when the camera has a CRS.  Shape checks are not modelled. -/
def worldToPixel (warp : Option (K × K × K → Fl K × Fl K × Fl K)) (r : Rpc K)
    (pts : List (Fl K × Fl K × Fl K)) : List (Fl K × Fl K) :=
  let pts' := match warp with
    | some w => scatter pts ((gather pts).map w)
    | none => pts
  pts'.map (evalPoint r)

/-- Normalised coordinates of a point. -/
def normXyz (r : Rpc K) (p : K × K × K) : K × K × K :=
  ((p.1 - r.longOff) / r.longScale, (p.2.1 - r.latOff) / r.latScale, (p.2.2 - r.heightOff) / r.heightScale)

/-- `evalPoint` without NaN: for points where no denominator is zero (see `evalPoint_val`). -/
def project (r : Rpc K) (p : K × K × K) : K × K :=
  let q := normXyz r p
  let i := poly q.1 q.2.1 q.2.2 r.lineNum / poly q.1 q.2.1 q.2.2 r.lineDen
  let j := poly q.1 q.2.1 q.2.2 r.sampNum / poly q.1 q.2.1 q.2.2 r.sampDen
  (j * r.sampScale + r.sampOff, i * r.lineScale + r.lineOff)

/-- A ground control point. -/
structure Gcp (K : Type) where
  ji : K × K
  xyz : K × K × K

/-- orthority/enums.py:146-152. -/
inductive Method
  | shift
  | shiftDrift
  deriving DecidableEq

/-- orthority/fit.py:82-86 `_norm_ji`. -/
def normJi (r : Rpc K) (ji : K × K) : K × K :=
  ((ji.1 - r.sampOff) / r.sampScale, (ji.2 - r.lineOff) / r.lineScale)

/-- Transform of one axis, `x ↦ m * x + c`. -/
structure Tform (K : Type) where
  m : K
  c : K

/-- orthority/fit.py:97-107: the refinement transform of one axis from pairs of projected and GCP coordinates.
`lstsq` is `np.linalg.lstsq`. -/
def fitAxis (lstsq : List (K × K) → Tform K) (method : Method) (l : List (K × K)) : Tform K :=
  match method with
  | .shift => ⟨1, (l.map fun p => p.2 - p.1).sum / l.length⟩
  | .shiftDrift => lstsq l

/-- Pairs of the normalised projected and GCP coordinates, (j, i) axes, orthority/fit.py:88-95. -/
def pairsJ (r : Rpc K) (gcps : List (Gcp K)) : List (K × K) :=
  gcps.map fun g => ((normJi r (project r g.xyz)).1, (normJi r g.ji).1)

def pairsI (r : Rpc K) (gcps : List (Gcp K)) : List (K × K) :=
  gcps.map fun g => ((normJi r (project r g.xyz)).2, (normJi r g.ji).2)

/-- orthority/fit.py:122-130: numerator coefficients with the transform. -/
def refineNum (t : Tform K) (num den : Fin 20 → K) : Fin 20 → K := fun i => num i * t.m + den i * t.c

/-- orthority/fit.py:49-130 `refine_rpc`.  Coordinates that are not finite are not modelled; `RpcRefine(method)` of
other values raises `ValueError`. -/
def refineRpc (lstsq : List (K × K) → Tform K) (method : Method) (r : Rpc K) (gcps : List (Gcp K)) :
    Res (Rpc K) :=
  if gcps.length < (match method with | .shift => 1 | .shiftDrift => 2) then .error .valueError
  else
    let tj := fitAxis lstsq method (pairsJ r gcps)
    let ti := fitAxis lstsq method (pairsI r gcps)
    .ok { r with
      sampNum := refineNum tj r.sampNum r.sampDen
      lineNum := refineNum ti r.lineNum r.lineDen }

end Verif.RpcCam
