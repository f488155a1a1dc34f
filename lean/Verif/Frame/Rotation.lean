import Mathlib.Analysis.SpecialFunctions.Trigonometric.Inverse
import Mathlib.Analysis.SpecialFunctions.Complex.Arg
import Mathlib.LinearAlgebra.Matrix.Determinant.Basic
import Mathlib.Tactic.LinearCombination
import Mathlib.Tactic.FinCases

/-!
# Rotations of frame cameras (C33 to C36)
-/

set_option autoImplicit false

namespace Verif.Frame

open Matrix Real

/-- A 3 by 3 matrix. -/
abbrev M3 := Matrix (Fin 3) (Fin 3) ℝ

/-- A 3D vector. -/
abbrev V3 := Fin 3 → ℝ

noncomputable section

/-- `R_x` in orthority/param_io.py:707 and 719-721. -/
def rotX (a : ℝ) : M3 := !![1, 0, 0; 0, cos a, -sin a; 0, sin a, cos a]

/-- `R_y` in orthority/param_io.py:708-710 and 722. -/
def rotY (a : ℝ) : M3 := !![cos a, 0, sin a; 0, 1, 0; -sin a, 0, cos a]

/-- `R_z` in orthority/param_io.py:711 and 723-725. -/
def rotZ (a : ℝ) : M3 := !![cos a, -sin a, 0; sin a, cos a, 0; 0, 0, 1]

/-- orthority/param_io.py:703-712 `_rpy_to_rotation`. -/
def rpyToRotation (roll pitch yaw : ℝ) : M3 := rotZ yaw * rotY pitch * rotX roll

/-- orthority/param_io.py:715-726 `_opk_to_rotation`. -/
def opkToRotation (o : ℝ × ℝ × ℝ) : M3 := rotX o.1 * rotY o.2.1 * rotZ o.2.2

/-- `np.arctan2(y, x)`, zero at the origin (signed zeros are not modelled). -/
def arctan2 (y x : ℝ) : ℝ := Complex.arg ⟨x, y⟩

/-- orthority/param_io.py:729-735 `_rotation_to_opk`.  `np.arcsin` outside [-1, 1] is NaN; here it is clipped. -/
def rotationToOpk (R : M3) : ℝ × ℝ × ℝ :=
  (arctan2 (-R 1 2) (R 2 2), arcsin (R 0 2), arctan2 (-R 0 1) (R 0 0))

/-- The change between PATB and OpenCV camera axes, orthority/camera.py:714, orthority/param_io.py:746 and 854. -/
def flipYZ : M3 := !![1, 0, 0; 0, -1, 0; 0, 0, -1]

/-- orthority/camera.py:697-715 `FrameCamera._get_extrinsic`: the rotation of a camera. -/
def extrinsicR (o : ℝ × ℝ × ℝ) : M3 := opkToRotation o * flipYZ

/-- orthority/param_io.py:838-856 `_cv_ext_to_oty_ext`; `Rcv` is `cv2.Rodrigues(r)[0]`. -/
def cvExtToOtyExt (t : V3) (Rcv : M3) (ref : Option V3) : V3 × (ℝ × ℝ × ℝ) :=
  let R := Rcvᵀ
  let xyz := -(R *ᵥ t)
  let xyz := match ref with
    | some r => xyz + r
    | none => xyz
  (xyz, rotationToOpk (R * flipYZ))

/-- orthority/param_io.py:738-750 `_aa_to_opk`. -/
def aaToOpk (Rcv : M3) : ℝ × ℝ × ℝ := rotationToOpk (Rcvᵀ * flipYZ)

/-- `np.cross`. -/
def cross (a b : V3) : V3 :=
  ![a 1 * b 2 - a 2 * b 1, a 2 * b 0 - a 0 * b 2, a 0 * b 1 - a 1 * b 0]

/-- Length of a vector. -/
def norm3 (a : V3) : ℝ := sqrt (a 0 ^ 2 + a 1 ^ 2 + a 2 ^ 2)

/-- orthority/param_io.py:819-825: the rotation from navigation to world coordinates.  `d` is the difference of the
world positions just north and south of the camera. -/
def navToWorld (d : V3) : M3 :=
  let x := fun i => d i / norm3 d
  let z : V3 := ![0, 0, -1]
  let y := cross z x
  !![x 0, y 0, z 0; x 1, y 1, z 1; x 2, y 2, z 2]

/-- The default camera to body rotation, orthority/param_io.py:828. -/
def camToBody : M3 := !![0, 1, 0; 1, 0, 0; 0, 0, -1]

/-- orthority/param_io.py:831: rotation from camera to world coordinates. -/
def camToWorld (roll pitch yaw : ℝ) (d : V3) (C_bB : M3) : M3 := navToWorld d * rpyToRotation roll pitch yaw * C_bB

/-- orthority/param_io.py:753-835 `_rpy_to_opk`; the coordinate transforms are not modelled (see `navToWorld`). -/
def rpyToOpk (roll pitch yaw : ℝ) (d : V3) (C_bB : M3) : ℝ × ℝ × ℝ := rotationToOpk (camToWorld roll pitch yaw d C_bB)

/-! ## Specification -/

/-- A proper rotation. -/
structure IsRot (R : M3) : Prop where
  orth : Rᵀ * R = 1
  det : R.det = 1

theorem IsRot.orth' {R : M3} (h : IsRot R) : R * Rᵀ = 1 := mul_eq_one_comm.1 h.orth

theorem IsRot.mul {R S : M3} (hR : IsRot R) (hS : IsRot S) : IsRot (R * S) := by
  refine ⟨?_, by rw [det_mul, hR.det, hS.det, mul_one]⟩
  rw [transpose_mul, Matrix.mul_assoc, ← Matrix.mul_assoc Rᵀ, hR.orth, Matrix.one_mul, hS.orth]

theorem IsRot.transpose {R : M3} (h : IsRot R) : IsRot Rᵀ :=
  ⟨by rw [transpose_transpose, h.orth'], by rw [det_transpose, h.det]⟩

theorem ext3 {A B : M3} (h : ∀ i j, A i j = B i j) : A = B := Matrix.ext h

theorem isRot_rotX (a : ℝ) : IsRot (rotX a) := by
  have h := sin_sq_add_cos_sq a
  constructor
  · ext i j
    fin_cases i <;> fin_cases j <;> simp [rotX, Matrix.mul_apply, Fin.sum_univ_three] <;> nlinarith
  · simp [rotX, det_fin_three]; nlinarith

theorem isRot_rotY (a : ℝ) : IsRot (rotY a) := by
  have h := sin_sq_add_cos_sq a
  constructor
  · ext i j
    fin_cases i <;> fin_cases j <;> simp [rotY, Matrix.mul_apply, Fin.sum_univ_three] <;> nlinarith
  · simp [rotY, det_fin_three]; nlinarith

theorem isRot_rotZ (a : ℝ) : IsRot (rotZ a) := by
  have h := sin_sq_add_cos_sq a
  constructor
  · ext i j
    fin_cases i <;> fin_cases j <;> simp [rotZ, Matrix.mul_apply, Fin.sum_univ_three] <;> nlinarith
  · simp [rotZ, det_fin_three]; nlinarith

theorem isRot_flipYZ : IsRot flipYZ := by
  constructor
  · ext i j
    fin_cases i <;> fin_cases j <;> simp [flipYZ, Matrix.mul_apply, Fin.sum_univ_three]
  · simp [flipYZ, det_fin_three]

theorem isRot_camToBody : IsRot camToBody := by
  constructor
  · ext i j
    fin_cases i <;> fin_cases j <;> simp [camToBody, Matrix.mul_apply, Fin.sum_univ_three]
  · simp [camToBody, det_fin_three]

/-- C33: OPK angles give a proper rotation, as do roll, pitch and yaw. -/
theorem C33_opk_rotation (o : ℝ × ℝ × ℝ) : IsRot (opkToRotation o) :=
  ((isRot_rotX _).mul (isRot_rotY _)).mul (isRot_rotZ _)

theorem C33_rpy_rotation (roll pitch yaw : ℝ) : IsRot (rpyToRotation roll pitch yaw) :=
  ((isRot_rotZ _).mul (isRot_rotY _)).mul (isRot_rotX _)

/-- C33: the rotation of a frame camera is proper. -/
theorem C33_camera_rotation (o : ℝ × ℝ × ℝ) : IsRot (extrinsicR o) := (C33_opk_rotation o).mul isRot_flipYZ

/-- C33: entries of the rotation, as in the PATB / Pix4D definition of omega, phi and kappa. -/
theorem C33_opk_entries (w p k : ℝ) :
    opkToRotation (w, p, k) =
      !![cos p * cos k, -cos p * sin k, sin p;
         cos w * sin k + sin w * sin p * cos k, cos w * cos k - sin w * sin p * sin k, -sin w * cos p;
         sin w * sin k - cos w * sin p * cos k, sin w * cos k + cos w * sin p * sin k, cos w * cos p] := by
  ext i j
  fin_cases i <;> fin_cases j <;>
    simp [opkToRotation, rotX, rotY, rotZ, Matrix.mul_apply, Fin.sum_univ_three] <;> ring

/-! ## C34 -/

theorem arctan2_cos (y x r : ℝ) (hr : 0 < r) (h : x ^ 2 + y ^ 2 = r ^ 2) : cos (arctan2 y x) = x / r := by
  have hz : (⟨x, y⟩ : ℂ) ≠ 0 := by
    intro hc
    have h1 : x = 0 := congrArg Complex.re hc
    have h2 : y = 0 := congrArg Complex.im hc
    rw [h1, h2] at h
    nlinarith
  have hn : ‖(⟨x, y⟩ : ℂ)‖ = r := by
    rw [Complex.norm_def, Complex.normSq_mk]
    rw [show x * x + y * y = r ^ 2 by rw [← h]; ring]
    exact sqrt_sq hr.le
  rw [arctan2, Complex.cos_arg hz, hn]

theorem arctan2_sin (y x r : ℝ) (hr : 0 < r) (h : x ^ 2 + y ^ 2 = r ^ 2) : sin (arctan2 y x) = y / r := by
  have hn : ‖(⟨x, y⟩ : ℂ)‖ = r := by
    rw [Complex.norm_def, Complex.normSq_mk]
    rw [show x * x + y * y = r ^ 2 by rw [← h]; ring]
    exact sqrt_sq hr.le
  rw [arctan2, Complex.sin_arg, hn]

/-- Equations between the entries of a rotation. -/
theorem IsRot.entries {R : M3} (h : IsRot R) :
    (R 0 0 ^ 2 + R 0 1 ^ 2 + R 0 2 ^ 2 = 1) ∧ (R 0 2 ^ 2 + R 1 2 ^ 2 + R 2 2 ^ 2 = 1) ∧
    (R 0 0 * R 1 0 + R 0 1 * R 1 1 + R 0 2 * R 1 2 = 0) ∧
    (R 0 0 * R 2 0 + R 0 1 * R 2 1 + R 0 2 * R 2 2 = 0) ∧
    R 2 2 = R 0 0 * R 1 1 - R 0 1 * R 1 0 ∧ R 1 2 = R 2 0 * R 0 1 - R 0 0 * R 2 1 := by
  have ho := h.orth
  have ho' := h.orth'
  have hd := h.det
  rw [det_fin_three] at hd
  have e (i j : Fin 3) : (R * Rᵀ) i j = (1 : M3) i j := by rw [ho']
  have e' (i j : Fin 3) : (Rᵀ * R) i j = (1 : M3) i j := by rw [ho]
  simp only [Matrix.mul_apply, Fin.sum_univ_three, transpose_apply] at e e'
  have h00 := e 0 0
  have h01 := e 0 1
  have h02 := e 0 2
  have h22 := e' 2 2
  have h20 := e' 2 0
  have h21 := e' 2 1
  have h12 := e 1 2
  have h11 := e 1 1
  have h2 := e 2 2
  simp at h00 h01 h02 h22 h20 h21 h12 h11 h2
  refine ⟨by linear_combination h00, by linear_combination h22, by linear_combination h01,
    by linear_combination h02, ?_, ?_⟩
  · linear_combination (R 2 2) * (-hd) + (R 0 0 * R 1 1 - R 0 1 * R 1 0) * h22 +
      (-(R 0 0 * R 1 2) + R 0 2 * R 1 0) * h21 + (R 0 1 * R 1 2 - R 0 2 * R 1 1) * h20
  · linear_combination (R 1 2) * (-hd) + (R 2 0 * R 0 1 - R 0 0 * R 2 1) * h22 +
      (R 0 0 * R 2 2 - R 0 2 * R 2 0) * h21 + (-(R 0 1 * R 2 2) + R 0 2 * R 2 1) * h20

end

end Verif.Frame
