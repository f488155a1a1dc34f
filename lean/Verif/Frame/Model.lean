import Verif.Base.Err
import Verif.Frame.RotationProps
import Mathlib.LinearAlgebra.Matrix.NonsingularInverse

/-!
# Frame cameras

Model of `FrameCamera` (orthority/camera.py:559-1116) over the reals.  Rounding is not modelled.  Division by zero, which
gives inf or NaN in numpy, gives zero here, so theorems assume that divisors are not zero where it matters.
-/

set_option autoImplicit false

namespace Verif.Frame

open Matrix Real

noncomputable section

/-! ## Interior parameters -/

/-- Intrinsic matrix with focal lengths `s` and principal point `c`, orthority/camera.py:693. -/
def kMat (s c : ℝ × ℝ) : M3 := !![s.1, 0, c.1; 0, s.2, c.2; 0, 0, 1]

/-- `focal_len` as two values, by numpy broadcasting (orthority/camera.py:670-684).  A scalar is a list of one value; an
empty list does not broadcast. -/
def focalPair : List ℝ → Res (ℝ × ℝ)
  | [f] => .ok (f, f)
  | [fx, fy] => .ok (fx, fy)
  | _ => .error .valueError

/-- `sensor_size` as two values, orthority/camera.py:668-669. -/
def sensorPair : List ℝ → Res (ℝ × ℝ)
  | [sx, sy] => .ok (sx, sy)
  | _ => .error .valueError

/-- Focal lengths in pixels, orthority/camera.py:675-684.  A sensor size of zero is not modelled: NumPy divides by it with a warning, and
pixels and rays of the camera are NaN or infinite, whereas here the matrix is singular. -/
def sigmaXY (im : ℕ × ℕ) (f : ℝ × ℝ) : Option (ℝ × ℝ) → ℝ × ℝ
  | none => (f.1 * im.1, f.2 * im.1)
  | some s => (f.1 * im.1 / s.1, f.2 * im.2 / s.2)

/-- Principal point in pixels, orthority/camera.py:687-688. -/
def centreXY (im : ℕ × ℕ) (cx cy : ℝ) : ℝ × ℝ :=
  (((im.1 : ℝ) - 1) / 2 + (max im.1 im.2 : ℕ) * cx, ((im.2 : ℝ) - 1) / 2 + (max im.1 im.2 : ℕ) * cy)

/-- orthority/camera.py:653-694 `FrameCamera._get_intrinsic`.  The image size is a pair already (orthority/camera.py:607);
warnings are not modelled. -/
def getIntrinsic (im : ℕ × ℕ) (focal : List ℝ) (sensor : Option (List ℝ)) (cx cy : ℝ) : Res M3 := do
  let s ← match sensor with
    | none => pure none
    | some l => do let s ← sensorPair l; pure (some s)
  let f ← focalPair focal
  pure (kMat (sigmaXY im f s) (centreXY im cx cy))

/-! ## The camera -/

/-- A frame camera.  `camToPix` and `pixToCam` are the methods `_camera_to_pixel` and `_pixel_to_camera` of its class;
`Kund` and `KundInv` are `_K_undistort` and `_K_undistort_inv`. -/
structure FrameCam where
  imSize : ℕ × ℕ
  K : M3
  Kund : M3
  KundInv : M3
  ext : Option (M3 × V3)
  distort : Bool
  camToPix : V3 → ℝ × ℝ
  pixToCam : ℝ × ℝ → V3

/-- First two coordinates of `K.dot(x)`, orthority/camera.py:791. -/
def dotK (K : M3) (x : V3) : ℝ × ℝ := ((K *ᵥ x) 0, (K *ᵥ x) 1)

/-- A pixel in homogeneous coordinates, orthority/camera.py:796. -/
def homog (ji : ℝ × ℝ) : V3 := ![ji.1, ji.2, 1]

/-- orthority/camera.py:697-715 `_get_extrinsic`, for `xyz` and `opk` with three values each. -/
def getExtrinsic (xyz : Option V3) (opk : Option (ℝ × ℝ × ℝ)) : Option (M3 × V3) :=
  match xyz, opk with
  | some t, some o => some (extrinsicR o, t)
  | _, _ => none

/-- orthority/camera.py:594-614 `FrameCamera.__init__` and 789-798 `_camera_to_pixel`, `_pixel_to_camera`: the pinhole
camera.  `np.linalg.inv` raises `LinAlgError`, a `ValueError`, for a singular matrix. -/
def pinhole (im : ℕ × ℕ) (focal : List ℝ) (sensor : Option (List ℝ)) (cx cy : ℝ) (xyz : Option V3)
    (opk : Option (ℝ × ℝ × ℝ)) (distort : Bool) : Res FrameCam := do
  let K ← getIntrinsic im focal sensor cx cy
  if K.det = 0 then .error .valueError else
  pure
    { imSize := im, K := K, Kund := K, KundInv := K⁻¹, ext := getExtrinsic xyz opk, distort := distort
      camToPix := dotK K, pixToCam := fun ji => K⁻¹ *ᵥ homog ji }

namespace FrameCam

/-- orthority/camera.py:789-792 `FrameCamera._camera_to_pixel`. -/
def baseCamToPix (c : FrameCam) (x : V3) : ℝ × ℝ := dotK c.Kund x

/-- orthority/camera.py:794-798 `FrameCamera._pixel_to_camera`. -/
def basePixToCam (c : FrameCam) (ji : ℝ × ℝ) : V3 := c.KundInv *ᵥ homog ji

/-- The projection from camera coordinates that is used, orthority/camera.py:836-840. -/
def toPix (c : FrameCam) (x : V3) : ℝ × ℝ := if c.distort then c.camToPix x else c.baseCamToPix x

/-- The ray of a pixel in camera coordinates, orthority/camera.py:868-870. -/
def toCam (c : FrameCam) (ji : ℝ × ℝ) : V3 := if c.distort then c.pixToCam ji else c.basePixToCam ji

/-- World to camera coordinates, orthority/camera.py:832. -/
def camCoords (R : M3) (T X : V3) : V3 := Rᵀ *ᵥ (X - T)

/-- Scaling of camera coordinates to unit depth, orthority/camera.py:833. -/
def unitDepth (x : V3) : V3 := fun i => x i / x 2

/-- `world_to_pixel` for one point, orthority/camera.py:832-841. -/
def projectPt (c : FrameCam) (R : M3) (T X : V3) : ℝ × ℝ := c.toPix (unitDepth (camCoords R T X))

/-- `pixel_to_world_z` for one point, orthority/camera.py:868-879. -/
def pointAtZ (c : FrameCam) (R : M3) (T : V3) (ji : ℝ × ℝ) (z : ℝ) : V3 :=
  let r := R *ᵥ c.toCam ji
  fun i => r i * ((z - T 2) / r 2) + T i

end FrameCam

/-! ## Arrays of points -/

/-- A numpy array of points with the given shape.  `cols` are its columns, when it is two dimensional. -/
structure PtArr (α : Type) where
  shape : List ℕ
  cols : List α

/-- An array with `d` rows has as many columns as its shape says. -/
def PtArr.Ok {α : Type} (a : PtArr α) (d : ℕ) : Prop := ∀ n, a.shape = [d, n] → a.cols.length = n

/-- The argument `z` of `pixel_to_world_z`: a number, or an array with the given shape. -/
inductive ZArg
  | scalar (z : ℝ)
  | arr (shape : List ℕ) (vals : List ℝ)

/-- An array of one dimension has as many values as its shape says. -/
def ZArg.Ok : ZArg → Prop
  | .scalar _ => True
  | .arr shape vals => ∀ n, shape = [n] → vals.length = n

/-- orthority/camera.py:71-75 and 63-69: arrays of points with `d` rows.  The data type is not modelled. -/
def validateCoords {α : Type} (a : PtArr α) (d : ℕ) : Res Unit :=
  match a.shape with
  | [m, _] => if m = d then .ok () else .error .valueError
  | _ => .error .valueError

/-- orthority/camera.py:77-85 `_validate_z`; `n` is `ji.shape[1]`. -/
def validateZ (z : ZArg) (n : ℕ) : Res Unit :=
  match z with
  | .scalar _ => .ok ()
  | .arr [m] _ => if m ≠ 1 ∧ n ≠ 1 ∧ m ≠ n then .error .valueError else .ok ()
  | .arr _ _ => .error .valueError

/-- Broadcasting of two one dimensional arrays by numpy. -/
def npBroadcast {α β : Type} : List α → List β → Res (List (α × β))
  | as, [b] => .ok (as.map fun a => (a, b))
  | [a], bs => .ok (bs.map fun b => (a, b))
  | as, bs => if as.length = bs.length then .ok (as.zip bs) else .error .valueError

/-- Pairs of pixel and elevation, by numpy broadcasting in orthority/camera.py:876-879. -/
def pairsZ {α : Type} (as : List α) : ZArg → Res (List (α × ℝ))
  | .scalar z => .ok (as.map fun a => (a, z))
  | .arr _ vals => npBroadcast as vals

/-- Number of columns of a two dimensional array. -/
def numCols {α : Type} (a : PtArr α) : ℕ :=
  match a.shape with
  | [_, n] => n
  | _ => 0

namespace FrameCam

/-- orthority/camera.py:717-720 `_test_init`. -/
def testInit (c : FrameCam) : Res (M3 × V3) :=
  match c.ext with
  | none => .error .cameraInitError
  | some e => .ok e

/-- orthority/camera.py:816-841 `FrameCamera.world_to_pixel`. -/
def worldToPixel (c : FrameCam) (xyz : PtArr V3) : Res (List (ℝ × ℝ)) := do
  let e ← c.testInit
  validateCoords xyz 3
  pure (xyz.cols.map (c.projectPt e.1 e.2))

/-- orthority/camera.py:843-880 `FrameCamera.pixel_to_world_z`. -/
def pixelToWorldZ (c : FrameCam) (ji : PtArr (ℝ × ℝ)) (z : ZArg) : Res (List V3) := do
  let e ← c.testInit
  validateCoords ji 2
  validateZ z (numCols ji)
  let pairs ← pairsZ ji.cols z
  pure (pairs.map fun p => c.pointAtZ e.1 e.2 p.1 p.2)

end FrameCam

/-! ## Horizon -/

/-- The eight points of `Camera.pixel_boundary` (orthority/camera.py:236-239) and `_horizon_fov` (camera.py:726-729). -/
def boundary8 (im : ℕ × ℕ) : List (ℝ × ℝ) :=
  let w : ℝ := (im.1 : ℝ) - 1
  let h : ℝ := (im.2 : ℝ) - 1
  [(0, 0), (w / 2, 0), (w, 0), (w, h / 2), (w, h), (w / 2, h), (0, h), (0, h / 2)]

open Classical in
/-- orthority/camera.py:722-734 `_horizon_fov`. -/
def FrameCam.horizonFov (c : FrameCam) : Res Bool := do
  let e ← c.testInit
  pure (decide (∃ p ∈ boundary8 c.imSize, 0 ≤ (e.1 *ᵥ c.pixToCam p) 2))

end

end Verif.Frame
