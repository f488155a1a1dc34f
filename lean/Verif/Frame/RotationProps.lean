import Verif.Frame.Rotation

/-!
# C34 to C36
-/

set_option autoImplicit false

namespace Verif.Frame

open Matrix Real

noncomputable section

/-- C34, the part that holds: the OPK angles of a rotation give the rotation back, unless phi is 90 or -90 degrees.
Missing: phi of 90 or -90 degrees (`C34_gimbal_fails`). -/
theorem C34_opk_recover_partial (R : M3) (hR : IsRot R) (h : R 0 2 ^ 2 ≠ 1) :
    opkToRotation (rotationToOpk R) = R := by
  obtain ⟨e1, e2, e3, e4, e5, e6⟩ := hR.entries
  have hlt : R 0 2 ^ 2 < 1 := by
    have h1 : R 0 2 ^ 2 ≤ 1 := by nlinarith [sq_nonneg (R 0 0), sq_nonneg (R 0 1)]
    exact lt_of_le_of_ne h1 h
  obtain ⟨c, hc⟩ : ∃ c, c = sqrt (1 - R 0 2 ^ 2) := ⟨_, rfl⟩
  have hcpos : 0 < c := by rw [hc]; exact sqrt_pos.2 (by linarith)
  have hc2 : c ^ 2 = 1 - R 0 2 ^ 2 := by rw [hc]; exact sq_sqrt (by linarith)
  have hs : sin (arcsin (R 0 2)) = R 0 2 := sin_arcsin (by nlinarith) (by nlinarith)
  have hcos : cos (arcsin (R 0 2)) = c := by rw [cos_arcsin, hc]
  have ho1 : cos (arctan2 (-R 1 2) (R 2 2)) = R 2 2 / c := arctan2_cos _ _ c hcpos (by rw [hc2]; linear_combination e2)
  have ho2 : sin (arctan2 (-R 1 2) (R 2 2)) = -R 1 2 / c := arctan2_sin _ _ c hcpos (by rw [hc2]; linear_combination e2)
  have hk1 : cos (arctan2 (-R 0 1) (R 0 0)) = R 0 0 / c := arctan2_cos _ _ c hcpos (by rw [hc2]; linear_combination e1)
  have hk2 : sin (arctan2 (-R 0 1) (R 0 0)) = -R 0 1 / c := arctan2_sin _ _ c hcpos (by rw [hc2]; linear_combination e1)
  have hc' := hcpos.ne'
  have hc00 : R 0 0 ^ 2 + R 0 1 ^ 2 = c ^ 2 := by rw [hc2]; linarith
  rw [rotationToOpk, C33_opk_entries, hs, hcos, ho1, ho2, hk1, hk2]
  ext i j
  fin_cases i <;> fin_cases j <;> simp
  · field_simp
  · field_simp
  · field_simp
    rw [← hc00]
    linear_combination (-R 0 0) * e3 - R 0 1 * e5
  · field_simp
    rw [← hc00]
    linear_combination (-R 0 1) * e3 + R 0 0 * e5
  · field_simp
  · field_simp
    rw [← hc00]
    linear_combination (-R 0 0) * e4 + R 0 1 * e6
  · field_simp
    rw [← hc00]
    linear_combination (-R 0 1) * e4 - R 0 0 * e6
  · field_simp

/-- C34: for a rotation with phi of 90 degrees, kappa is lost: the angles give another rotation. -/
theorem C34_gimbal_fails :
    IsRot (opkToRotation (0, π / 2, π / 2)) ∧
      opkToRotation (rotationToOpk (opkToRotation (0, π / 2, π / 2))) ≠ opkToRotation (0, π / 2, π / 2) := by
  refine ⟨C33_opk_rotation _, fun h => ?_⟩
  have h1 := congrFun (congrFun h 1) 1
  rw [rotationToOpk] at h1
  have h0 : (⟨0, 0⟩ : ℂ).arg = 0 := Complex.arg_zero
  simp [C33_opk_entries, arctan2, h0] at h1

/-- C34: angles in the usual range are recovered from their rotation. -/
theorem C34_angles (w p k : ℝ) (hw : w ∈ Set.Ioc (-π) π) (hp : p ∈ Set.Ioo (-(π / 2)) (π / 2))
    (hk : k ∈ Set.Ioc (-π) π) : rotationToOpk (opkToRotation (w, p, k)) = (w, p, k) := by
  have hc : 0 < cos p := cos_pos_of_mem_Ioo hp
  have key : ∀ a : ℝ, a ∈ Set.Ioc (-π) π → arctan2 (cos p * sin a) (cos p * cos a) = a := by
    intro a ha
    have e : (⟨cos p * cos a, cos p * sin a⟩ : ℂ) = (cos p : ℂ) * (Complex.cos a + Complex.sin a * Complex.I) := by
      apply Complex.ext <;> simp [← Complex.ofReal_cos, ← Complex.ofReal_sin]
    rw [arctan2, e, Complex.arg_mul_cos_add_sin_mul_I hc ha]
  rw [C33_opk_entries]
  simp only [rotationToOpk, Matrix.of_apply, Matrix.cons_val', Matrix.cons_val_zero, Matrix.cons_val_one, Matrix.cons_val]
  have e1 : -(-sin w * cos p) = cos p * sin w := by ring
  have e2 : cos w * cos p = cos p * cos w := by ring
  have e3 : -(-cos p * sin k) = cos p * sin k := by ring
  rw [e1, e2, e3, key w hw, key k hk, arcsin_sin hp.1.le hp.2.le]

/-! ## C35 -/

theorem flip_flip : flipYZ * flipYZ = 1 := by
  ext i j
  fin_cases i <;> fin_cases j <;> simp [flipYZ, Matrix.mul_apply, Fin.sum_univ_three]

/-- The camera of an OpenCV pose has its rotation. -/
theorem extrinsicR_cv (Rcv : M3) (h : IsRot Rcv) (hg : Rcv 2 0 ^ 2 ≠ 1) (t : V3) (ref : Option V3) :
    extrinsicR (cvExtToOtyExt t Rcv ref).2 = Rcvᵀ := by
  have hr : IsRot (Rcvᵀ * flipYZ) := h.transpose.mul isRot_flipYZ
  have h02 : (Rcvᵀ * flipYZ) 0 2 = -Rcv 2 0 := by
    simp [flipYZ, Matrix.mul_apply, Fin.sum_univ_three]
  have := C34_opk_recover_partial _ hr (by rw [h02]; simpa using hg)
  have h2 : (cvExtToOtyExt t Rcv ref).2 = rotationToOpk (Rcvᵀ * flipYZ) := by
    cases ref <;> rfl
  rw [extrinsicR, h2, this, Matrix.mul_assoc, flip_flip, Matrix.mul_one]

/-- C35, the part that holds: with the position and angles made from an OpenCV pose, a frame camera (with world to
camera transform `Rᵀ (X - T)`, orthority/camera.py:832) transforms every world point to the camera coordinates
`Rcv (X - ref) + t` of the pose.  Missing: poses with phi of 90 or -90 degrees (`C35_gimbal_fails`). -/
theorem C35_projection_partial (Rcv : M3) (h : IsRot Rcv) (hg : Rcv 2 0 ^ 2 ≠ 1) (t : V3) (ref : Option V3) (X : V3) :
    (extrinsicR (cvExtToOtyExt t Rcv ref).2)ᵀ *ᵥ (X - (cvExtToOtyExt t Rcv ref).1) =
      Rcv *ᵥ (X - ref.getD 0) + t := by
  rw [extrinsicR_cv Rcv h hg t ref, transpose_transpose]
  have hx : (cvExtToOtyExt t Rcv ref).1 = -(Rcvᵀ *ᵥ t) + ref.getD 0 := by
    cases ref with
    | none => simp [cvExtToOtyExt]
    | some r => rfl
  rw [hx]
  have : X - (-(Rcvᵀ *ᵥ t) + ref.getD 0) = (X - ref.getD 0) + Rcvᵀ *ᵥ t := by
    funext i; simp; ring
  rw [this, mulVec_add, mulVec_mulVec, h.orth', one_mulVec]

/-- The formula of Rodrigues for a rotation vector, as in the documentation of `cv2.Rodrigues`. -/
def rodrigues (r : V3) : M3 :=
  let a := norm3 r
  let x := r 0 / a
  let y := r 1 / a
  let z := r 2 / a
  let c := cos a
  let s := sin a
  !![c + (1 - c) * x * x, (1 - c) * x * y - s * z, (1 - c) * x * z + s * y;
     (1 - c) * x * y + s * z, c + (1 - c) * y * y, (1 - c) * y * z - s * x;
     (1 - c) * x * z - s * y, (1 - c) * y * z + s * x, c + (1 - c) * z * z]

theorem norm3_sq (r : V3) : norm3 r ^ 2 = r 0 ^ 2 + r 1 ^ 2 + r 2 ^ 2 := sq_sqrt (by positivity)

/-- Every rotation vector gives a rotation: the assumption of `C35_projection_partial` is met. -/
theorem isRot_rodrigues (r : V3) : IsRot (rodrigues r) := by
  by_cases h0 : norm3 r = 0
  · have : rodrigues r = 1 := by
      ext i j
      fin_cases i <;> fin_cases j <;> simp [rodrigues, h0]
    rw [this]
    exact ⟨by simp, by simp⟩
  · have hn := norm3_sq r
    obtain ⟨x, hx⟩ : ∃ x, x = r 0 / norm3 r := ⟨_, rfl⟩
    obtain ⟨y, hy⟩ : ∃ y, y = r 1 / norm3 r := ⟨_, rfl⟩
    obtain ⟨z, hz⟩ : ∃ z, z = r 2 / norm3 r := ⟨_, rfl⟩
    have hu : x ^ 2 + y ^ 2 + z ^ 2 = 1 := by
      rw [hx, hy, hz, div_pow, div_pow, div_pow, ← add_div, ← add_div, ← hn]
      exact div_self (pow_ne_zero 2 h0)
    have hcs := sin_sq_add_cos_sq (norm3 r)
    simp only [rodrigues, ← hx, ← hy, ← hz]
    generalize cos (norm3 r) = c at *
    generalize sin (norm3 r) = s at *
    have hs : s ^ 2 = 1 - c ^ 2 := by linarith
    have hz2 : z ^ 2 = 1 - x ^ 2 - y ^ 2 := by linarith
    constructor
    · ext i j
      fin_cases i <;> fin_cases j <;> simp [Matrix.mul_apply, Fin.sum_univ_three]
      all_goals grind
    · rw [det_fin_three]
      simp
      grind

/-- C35, the part that holds, for the rotation vector of the pose. -/
theorem C35_rodrigues_partial (r t X : V3) (ref : Option V3) (hg : rodrigues r 2 0 ^ 2 ≠ 1) :
    (extrinsicR (cvExtToOtyExt t (rodrigues r) ref).2)ᵀ *ᵥ (X - (cvExtToOtyExt t (rodrigues r) ref).1) =
      rodrigues r *ᵥ (X - ref.getD 0) + t :=
  C35_projection_partial _ (isRot_rodrigues r) hg t ref X

/-- C35: the angles alone, `_aa_to_opk`, are those of the pose. -/
theorem C35_aa (t : V3) (Rcv : M3) (ref : Option V3) : aaToOpk Rcv = (cvExtToOtyExt t Rcv ref).2 := by
  cases ref <;> rfl

/-- A pose meeting the assumptions of `C35_projection_partial`: a camera looking along X, tilted by a 3-4-5 angle. -/
example : IsRot (!![0, 1, 0; 3 / 5, 0, 4 / 5; 4 / 5, 0, -3 / 5] : M3) ∧
    (!![0, 1, 0; 3 / 5, 0, 4 / 5; 4 / 5, 0, -3 / 5] : M3) 2 0 ^ 2 ≠ 1 := by
  refine ⟨⟨?_, ?_⟩, by simp [Matrix.of_apply]; norm_num⟩
  · ext i j
    fin_cases i <;> fin_cases j <;> simp [Matrix.mul_apply, Fin.sum_univ_three] <;> norm_num
  · simp [det_fin_three]; norm_num

/-- C35: with phi of 90 degrees the converted camera does not have the pose it was made from. -/
theorem C35_gimbal_fails : ∃ Rcv : M3, IsRot Rcv ∧ ∃ X : V3,
    (extrinsicR (cvExtToOtyExt 0 Rcv none).2)ᵀ *ᵥ (X - (cvExtToOtyExt 0 Rcv none).1) ≠ Rcv *ᵥ X := by
  refine ⟨(extrinsicR (0, π / 2, π / 2))ᵀ, (C33_camera_rotation _).transpose, ![0, 1, 0], fun h => ?_⟩
  have h1 := congrFun h 1
  have h0 : (⟨0, 0⟩ : ℂ).arg = 0 := Complex.arg_zero
  simp [cvExtToOtyExt, extrinsicR, rotationToOpk, C33_opk_entries, flipYZ, arctan2, h0, Matrix.mul_apply,
    Matrix.mulVec, dotProduct, Fin.sum_univ_three] at h1

/-! ## C36 -/

/-- C36: for a horizontal north vector, the navigation to world rotation is a rotation. -/
theorem C36_nav (d : V3) (hz : d 2 = 0) (hd : norm3 d ≠ 0) : IsRot (navToWorld d) := by
  have hn := norm3_sq d
  rw [hz] at hn
  obtain ⟨x, hx⟩ : ∃ x, x = d 0 / norm3 d := ⟨_, rfl⟩
  obtain ⟨y, hy⟩ : ∃ y, y = d 1 / norm3 d := ⟨_, rfl⟩
  have hu : x ^ 2 + y ^ 2 = 1 := by
    rw [hx, hy, div_pow, div_pow, ← add_div]
    have : d 0 ^ 2 + d 1 ^ 2 = norm3 d ^ 2 := by rw [hn]; ring
    rw [this]
    exact div_self (pow_ne_zero 2 hd)
  constructor
  · ext i j
    fin_cases i <;> fin_cases j <;>
      simp [navToWorld, cross, hz, ← hx, ← hy, Matrix.mul_apply, Fin.sum_univ_three] <;> grind
  · simp [navToWorld, cross, hz, ← hx, ← hy, det_fin_three]
    grind

/-- C36: for a horizontal north vector, the camera to world rotation is a rotation, whatever the roll, pitch and yaw,
and whatever rotation there is between camera and body. -/
theorem C36_rotation (roll pitch yaw : ℝ) (d : V3) (hz : d 2 = 0) (hd : norm3 d ≠ 0) (C : M3) (hC : IsRot C) :
    IsRot (camToWorld roll pitch yaw d C) :=
  ((C36_nav d hz hd).mul (C33_rpy_rotation roll pitch yaw)).mul hC

/-- C36, the part that holds: the OPK angles made from roll, pitch and yaw give the composed body to world rotation.
Missing: phi of 90 or -90 degrees, as for C34, and north vectors that are not horizontal (`C36_tilted_fails`). -/
theorem C36_opk_partial (roll pitch yaw : ℝ) (d : V3) (hz : d 2 = 0) (hd : norm3 d ≠ 0) (C : M3) (hC : IsRot C)
    (hg : camToWorld roll pitch yaw d C 0 2 ^ 2 ≠ 1) :
    opkToRotation (rpyToOpk roll pitch yaw d C) = navToWorld d * rpyToRotation roll pitch yaw * C :=
  C34_opk_recover_partial _ (C36_rotation roll pitch yaw d hz hd C hC) hg

/-- C36: a level camera with its top to the north has zero omega and phi, and kappa zero, in a north-up world. -/
theorem C36_level : rpyToOpk 0 0 0 ![0, 1, 0] camToBody = (0, 0, 0) := by
  have hn : norm3 ![0, 1, 0] = 1 := by simp [norm3]
  have h1 : (⟨1, 0⟩ : ℂ).arg = 0 := Complex.arg_one
  simp [rpyToOpk, camToWorld, navToWorld, hn, cross, rpyToRotation, rotX, rotY, rotZ, camToBody, rotationToOpk,
    Matrix.mul_apply, Fin.sum_univ_three, arctan2, h1]

/-- C36: for a level camera the yaw of `_rpy_to_opk` is clockwise: kappa is its negative. -/
theorem C36_yaw (yaw : ℝ) (hy : -yaw ∈ Set.Ioc (-π) π) :
    rpyToOpk 0 0 yaw ![0, 1, 0] camToBody = (0, 0, -yaw) := by
  have hn : norm3 ![0, 1, 0] = 1 := by simp [norm3]
  have e : camToWorld 0 0 yaw ![0, 1, 0] camToBody = opkToRotation (0, 0, -yaw) := by
    rw [C33_opk_entries]
    ext i j
    fin_cases i <;> fin_cases j <;>
      simp [camToWorld, navToWorld, hn, cross, rpyToRotation, rotX, rotY, rotZ, camToBody, Matrix.mul_apply,
        Fin.sum_univ_three]
  rw [rpyToOpk, e]
  exact C34_angles _ _ _ ⟨by linarith [pi_pos], pi_pos.le⟩ ⟨by linarith [pi_pos], by linarith [pi_pos]⟩ hy

/-- C36: pitching the nose of a level body up tilts its camera about the x axis: omega is the pitch. -/
theorem C36_pitch (pitch : ℝ) (hp : pitch ∈ Set.Ioc (-π) π) :
    rpyToOpk 0 pitch 0 ![0, 1, 0] camToBody = (pitch, 0, 0) := by
  have hn : norm3 ![0, 1, 0] = 1 := by simp [norm3]
  have e : camToWorld 0 pitch 0 ![0, 1, 0] camToBody = opkToRotation (pitch, 0, 0) := by
    rw [C33_opk_entries]
    ext i j
    fin_cases i <;> fin_cases j <;>
      simp [camToWorld, navToWorld, hn, cross, rpyToRotation, rotX, rotY, rotZ, camToBody, Matrix.mul_apply,
        Fin.sum_univ_three]
  rw [rpyToOpk, e]
  exact C34_angles _ _ _ hp ⟨by linarith [pi_pos], by linarith [pi_pos]⟩ ⟨by linarith [pi_pos], pi_pos.le⟩

/-- C36: rolling a level body right wing down tilts its camera about the y axis: phi is the roll. -/
theorem C36_roll (roll : ℝ) (hr : roll ∈ Set.Ioo (-(π / 2)) (π / 2)) :
    rpyToOpk roll 0 0 ![0, 1, 0] camToBody = (0, roll, 0) := by
  have hn : norm3 ![0, 1, 0] = 1 := by simp [norm3]
  have e : camToWorld roll 0 0 ![0, 1, 0] camToBody = opkToRotation (0, roll, 0) := by
    rw [C33_opk_entries]
    ext i j
    fin_cases i <;> fin_cases j <;>
      simp [camToWorld, navToWorld, hn, cross, rpyToRotation, rotX, rotY, rotZ, camToBody, Matrix.mul_apply,
        Fin.sum_univ_three]
  rw [rpyToOpk, e]
  exact C34_angles _ _ _ ⟨by linarith [pi_pos], pi_pos.le⟩ hr ⟨by linarith [pi_pos], pi_pos.le⟩

/-- C36: with a north vector that is not horizontal the composed matrix is not a rotation. -/
theorem C36_tilted_fails : ¬ IsRot (camToWorld 0 0 0 ![0, 4 / 5, 3 / 5] camToBody) := by
  intro h
  have hn : norm3 ![0, 4 / 5, 3 / 5] = 1 := by
    simp only [norm3, Matrix.cons_val_zero, Matrix.cons_val_one, Matrix.cons_val]
    norm_num
  have h1 := congrFun (congrFun h.orth 0) 0
  simp [camToWorld, navToWorld, hn, cross, rpyToRotation, rotX, rotY, rotZ, camToBody,
    Matrix.mul_apply, Fin.sum_univ_three] at h1
  norm_num at h1

end

end Verif.Frame
