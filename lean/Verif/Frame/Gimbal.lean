import Verif.Frame.RotationProps

/-!
# Exactly which rotations are recovered from their angles (C34, C35)
-/

set_option autoImplicit false

namespace Verif.Frame

open Matrix Real

/-- The rotation with phi of 90 or -90 degrees that has no omega and kappa. -/
theorem opk_gimbal {s : ℝ} (hs : s ^ 2 = 1) : opkToRotation (0, arcsin s, 0) = !![0, 0, s; 0, 1, 0; -s, 0, 0] := by
  have h1 : sin (arcsin s) = s := sin_arcsin (by nlinarith) (by nlinarith)
  have h2 : cos (arcsin s) = 0 := by rw [cos_arcsin, hs]; simp
  rw [C33_opk_entries, h1, h2]
  ext i j
  fin_cases i <;> fin_cases j <;> simp

/-- What becomes of a rotation with phi of 90 or -90 degrees. -/
theorem recover_gimbal {R : M3} (hR : IsRot R) (h : R 0 2 ^ 2 = 1) :
    opkToRotation (rotationToOpk R) = !![0, 0, R 0 2; 0, 1, 0; -R 0 2, 0, 0] := by
  obtain ⟨e1, e2, -⟩ := hR.entries
  have a1 : R 0 0 = 0 := by nlinarith [sq_nonneg (R 0 0), sq_nonneg (R 0 1)]
  have a2 : R 0 1 = 0 := by nlinarith [sq_nonneg (R 0 0), sq_nonneg (R 0 1)]
  have a3 : R 1 2 = 0 := by nlinarith [sq_nonneg (R 1 2), sq_nonneg (R 2 2)]
  have a4 : R 2 2 = 0 := by nlinarith [sq_nonneg (R 1 2), sq_nonneg (R 2 2)]
  have h0 : arctan2 0 0 = 0 := Complex.arg_zero
  rw [rotationToOpk, a1, a2, a3, a4, neg_zero, h0, opk_gimbal h]

/-- C34: the OPK angles of a rotation give the rotation back exactly when phi is not 90 or -90 degrees, or it has no other angle: its y axis is that of the
world. -/
theorem C34_exact (R : M3) (hR : IsRot R) : opkToRotation (rotationToOpk R) = R ↔ R 0 2 ^ 2 ≠ 1 ∨ R 1 1 = 1 := by
  constructor
  · intro h
    by_contra hc
    push Not at hc
    rw [recover_gimbal hR hc.1] at h
    exact hc.2 (congrFun (congrFun h 1) 1).symm
  · intro h
    by_cases hg : R 0 2 ^ 2 = 1
    · have h11 := h.resolve_left (fun hn => hn hg)
      rw [recover_gimbal hR hg]
      obtain ⟨e1, e2, -⟩ := hR.entries
      have a1 : R 0 0 = 0 := by nlinarith [sq_nonneg (R 0 0), sq_nonneg (R 0 1)]
      have a2 : R 0 1 = 0 := by nlinarith [sq_nonneg (R 0 0), sq_nonneg (R 0 1)]
      have a3 : R 1 2 = 0 := by nlinarith [sq_nonneg (R 1 2), sq_nonneg (R 2 2)]
      have a4 : R 2 2 = 0 := by nlinarith [sq_nonneg (R 1 2), sq_nonneg (R 2 2)]
      have o1 : (R * Rᵀ) 1 1 = (1 : M3) 1 1 := by rw [hR.orth']
      have o2 : (Rᵀ * R) 1 1 = (1 : M3) 1 1 := by rw [hR.orth]
      simp only [Matrix.mul_apply, Fin.sum_univ_three, transpose_apply] at o1 o2
      simp [a2, a3, h11] at o1 o2
      have hd := hR.det
      rw [det_fin_three] at hd
      simp [a1, a2, a3, a4, h11, o1, o2] at hd
      have h20 : R 2 0 = -R 0 2 := by
        linear_combination (-R 0 2) * hd - R 2 0 * hg
      ext i j
      fin_cases i <;> fin_cases j <;> simp [a1, a2, a3, a4, h11, o1, o2, h20]
    · exact C34_opk_recover_partial R hR hg

/-- C34: in terms of the angles that a rotation is made of: it is recovered exactly when the cosine of phi is not zero, or kappa turns it back by the
omega that it has turned it. -/
theorem C34_exact_angles (w p k : ℝ) : opkToRotation (rotationToOpk (opkToRotation (w, p, k))) = opkToRotation (w, p, k) ↔
    cos p ≠ 0 ∨ cos (w + sin p * k) = 1 := by
  rw [C34_exact _ (C33_opk_rotation _), C33_opk_entries]
  simp only [Matrix.of_apply, Matrix.cons_val', Matrix.cons_val_zero, Matrix.cons_val_one, Matrix.cons_val]
  have hsc := sin_sq_add_cos_sq p
  by_cases hp : cos p = 0
  · have hs : sin p ^ 2 = 1 := by rw [hp] at hsc; linarith
    simp only [hs, hp, ne_eq, not_true_eq_false, false_or]
    have hs' : sin p = 1 ∨ sin p = -1 := by
      rcases mul_eq_zero.1 (show (sin p - 1) * (sin p + 1) = 0 by linear_combination hs) with h | h
      · exact Or.inl (by linarith)
      · exact Or.inr (by linarith)
    rcases hs' with h | h
    · rw [h, one_mul, cos_add]; constructor <;> intro h' <;> linarith
    · rw [h, neg_one_mul, ← sub_eq_add_neg, cos_sub]; constructor <;> intro h' <;> linarith
  · have : sin p ^ 2 ≠ 1 := by
      intro h
      exact hp (by nlinarith [sq_nonneg (cos p)])
    simp [hp, this]

/-- C35: a frame camera with the position and angles made from an OpenCV pose has the camera coordinates of the pose, for all points, exactly when phi is not 90
or -90 degrees, or it has no other angle. -/
theorem C35_exact (Rcv : M3) (h : IsRot Rcv) (t : V3) (ref : Option V3) :
    (∀ X : V3, (extrinsicR (cvExtToOtyExt t Rcv ref).2)ᵀ *ᵥ (X - (cvExtToOtyExt t Rcv ref).1) = Rcv *ᵥ (X - ref.getD 0) + t) ↔
      Rcv 2 0 ^ 2 ≠ 1 ∨ Rcv 1 1 = -1 := by
  have hr : IsRot (Rcvᵀ * flipYZ) := h.transpose.mul isRot_flipYZ
  have h02 : (Rcvᵀ * flipYZ) 0 2 = -Rcv 2 0 := by simp [flipYZ, Matrix.mul_apply, Fin.sum_univ_three]
  have h11 : (Rcvᵀ * flipYZ) 1 1 = -Rcv 1 1 := by simp [flipYZ, Matrix.mul_apply, Fin.sum_univ_three]
  have key := C34_exact _ hr
  rw [h02, h11, neg_sq, neg_eq_iff_eq_neg] at key
  rw [← key]
  have h2 : (cvExtToOtyExt t Rcv ref).2 = rotationToOpk (Rcvᵀ * flipYZ) := by cases ref <;> rfl
  have hx : (cvExtToOtyExt t Rcv ref).1 = -(Rcvᵀ *ᵥ t) + ref.getD 0 := by
    cases ref with
    | none => simp [cvExtToOtyExt]
    | some r => rfl
  rw [h2, hx, extrinsicR]
  set Q := opkToRotation (rotationToOpk (Rcvᵀ * flipYZ)) with hQ
  have hsplit : ∀ X : V3, X - (-(Rcvᵀ *ᵥ t) + ref.getD 0) = (X - ref.getD 0) + Rcvᵀ *ᵥ t := by
    intro X; funext i; simp; ring
  constructor
  · intro hX
    have hM : (Q * flipYZ)ᵀ = Rcv := by
      have hlin : ∀ Y : V3, (Q * flipYZ)ᵀ *ᵥ Y = Rcv *ᵥ Y := by
        intro Y
        have := hX (Y - Rcvᵀ *ᵥ t + ref.getD 0)
        rw [hsplit, add_sub_cancel_right, sub_add_cancel, mulVec_sub, mulVec_mulVec, h.orth', one_mulVec, sub_add_cancel] at this
        exact this
      ext i j
      have := congrFun (hlin (Pi.single j 1)) i
      rw [mulVec_single_one, mulVec_single_one] at this
      exact this
    have : Q * flipYZ * flipYZ = Rcvᵀ * flipYZ := by
      rw [← hM, transpose_transpose]
    rw [Matrix.mul_assoc, flip_flip, Matrix.mul_one] at this
    exact this
  · intro hq X
    rw [hq, Matrix.mul_assoc, flip_flip, Matrix.mul_one, transpose_transpose, hsplit, mulVec_add, mulVec_mulVec, h.orth', one_mulVec]

/-! ## Cases of the theorems -/

/-- A camera that looks west with its top to the north has phi of 90 degrees and no other angle: it is recovered.  With its top to the south (kappa of 180 degrees) it is not. -/
example : opkToRotation (rotationToOpk (opkToRotation (0, π / 2, 0))) = opkToRotation (0, π / 2, 0) ∧
    opkToRotation (rotationToOpk (opkToRotation (0, π / 2, π))) ≠ opkToRotation (0, π / 2, π) := by
  constructor
  · rw [C34_exact_angles]; right; simp
  · rw [ne_eq, C34_exact_angles]
    simp
    norm_num

end Verif.Frame
