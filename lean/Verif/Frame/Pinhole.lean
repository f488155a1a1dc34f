import Verif.Frame.Model
import Mathlib.Analysis.Convex.Basic

/-!
# C32, C37 to C40 and C60
-/

set_option autoImplicit false

namespace Verif.Frame

open Matrix Real
open Res (ok_bind error_bind)

noncomputable section

/-! ## Lemmas on intrinsic matrices -/

theorem kMat_det (s c : ℝ × ℝ) : (kMat s c).det = s.1 * s.2 := by
  simp [kMat, det_fin_three]

theorem kMat_inv (s c : ℝ × ℝ) (h : (kMat s c).det ≠ 0) :
    (kMat s c)⁻¹ = !![1 / s.1, 0, -c.1 / s.1; 0, 1 / s.2, -c.2 / s.2; 0, 0, 1] := by
  rw [kMat_det] at h
  have h1 : s.1 ≠ 0 := left_ne_zero_of_mul h
  have h2 : s.2 ≠ 0 := right_ne_zero_of_mul h
  apply Matrix.inv_eq_right_inv
  ext i j
  fin_cases i <;> fin_cases j <;> simp [kMat, Matrix.mul_apply, Fin.sum_univ_three] <;> field_simp <;> ring

/-- Ray of a pixel. -/
theorem kMat_ray (s c : ℝ × ℝ) (h : (kMat s c).det ≠ 0) (ji : ℝ × ℝ) :
    (kMat s c)⁻¹ *ᵥ homog ji = ![(ji.1 - c.1) / s.1, (ji.2 - c.2) / s.2, 1] := by
  rw [kMat_inv s c h]
  funext i
  fin_cases i <;> simp [homog, Matrix.mulVec, dotProduct, Fin.sum_univ_three] <;> ring

theorem dotK_kMat (s c : ℝ × ℝ) (x : V3) :
    dotK (kMat s c) x = (s.1 * x 0 + c.1 * x 2, s.2 * x 1 + c.2 * x 2) := by
  simp [dotK, kMat, Matrix.mulVec, dotProduct, Fin.sum_univ_three]

theorem dotK_ray (s c : ℝ × ℝ) (h : (kMat s c).det ≠ 0) (ji : ℝ × ℝ) :
    dotK (kMat s c) ((kMat s c)⁻¹ *ᵥ homog ji) = ji := by
  rw [kMat_ray s c h, dotK_kMat]
  rw [kMat_det] at h
  have h1 : s.1 ≠ 0 := left_ne_zero_of_mul h
  have h2 : s.2 ≠ 0 := right_ne_zero_of_mul h
  apply Prod.ext <;> simp <;> field_simp <;> ring

theorem ray_dotK (s c : ℝ × ℝ) (h : (kMat s c).det ≠ 0) (x : V3) (hx : x 2 = 1) :
    (kMat s c)⁻¹ *ᵥ homog (dotK (kMat s c) x) = x := by
  rw [kMat_ray s c h, dotK_kMat]
  rw [kMat_det] at h
  have h1 : s.1 ≠ 0 := left_ne_zero_of_mul h
  have h2 : s.2 ≠ 0 := right_ne_zero_of_mul h
  funext i
  fin_cases i <;> simp [hx] <;> field_simp

/-! ## The pinhole camera -/

/-- What `getIntrinsic` returns. -/
theorem getIntrinsic_ok {im : ℕ × ℕ} {focal : List ℝ} {sensor : Option (List ℝ)} {cx cy : ℝ} {K : M3}
    (h : getIntrinsic im focal sensor cx cy = .ok K) :
    ∃ f s, focalPair focal = .ok f ∧ (match sensor with | none => s = none | some l => ∃ p, sensorPair l = .ok p ∧ s = some p) ∧
      K = kMat (sigmaXY im f s) (centreXY im cx cy) := by
  unfold getIntrinsic at h
  cases sensor with
  | none =>
    cases hf : focalPair focal with
    | error e => simp [hf] at h
    | ok f =>
      simp only [hf] at h
      injection h with h
      exact ⟨f, none, rfl, rfl, h.symm⟩
  | some l =>
    cases hs : sensorPair l with
    | error e => simp [hs, error_bind] at h
    | ok p =>
      cases hf : focalPair focal with
      | error e =>
        simp only [hs, hf] at h
        exact absurd (show (Except.error e : Res M3) = .ok K from h) (by simp)
      | ok f =>
        simp only [hs, hf] at h
        injection h with h
        exact ⟨f, some p, rfl, ⟨p, hs, rfl⟩, h.symm⟩

/-- A pinhole camera with the given exterior parameters, from the constructor. -/
structure IsPinhole (c : FrameCam) (R : M3) (T : V3) : Prop where
  made : ∃ im focal sensor cx cy opk distort,
    pinhole im focal sensor cx cy (some T) (some opk) distort = .ok c ∧ R = extrinsicR opk

theorem IsPinhole.spec {c : FrameCam} {R : M3} {T : V3} (h : IsPinhole c R T) :
    ∃ s ctr, (kMat s ctr).det ≠ 0 ∧ c.K = kMat s ctr ∧ c.toPix = dotK (kMat s ctr) ∧
      (c.toCam = fun ji => (kMat s ctr)⁻¹ *ᵥ homog ji) ∧ (c.pixToCam = fun ji => (kMat s ctr)⁻¹ *ᵥ homog ji) ∧
      c.ext = some (R, T) ∧ IsRot R := by
  obtain ⟨im, focal, sensor, cx, cy, opk, distort, hc, hR⟩ := h.made
  unfold pinhole at hc
  cases hK : getIntrinsic im focal sensor cx cy with
  | error e => simp [hK, error_bind] at hc
  | ok K =>
    obtain ⟨f, s, -, -, hk⟩ := getIntrinsic_ok hK
    simp only [hK, ok_bind] at hc
    by_cases hd : K.det = 0
    · simp [hd] at hc
    · rw [if_neg hd] at hc
      injection hc with hc
      subst hk
      refine ⟨_, _, hd, ?_, ?_, ?_, ?_, ?_, ?_⟩
      · rw [← hc]
      · rw [← hc]; funext x; unfold FrameCam.toPix; cases distort <;> rfl
      · rw [← hc]; funext x; unfold FrameCam.toCam; cases distort <;> rfl
      · rw [← hc]
      · rw [← hc]; simp [getExtrinsic, hR]
      · rw [hR]; exact C33_camera_rotation opk

/-! ## C32 -/

theorem mulVec_smul' (R : M3) (k : ℝ) (v : V3) : R *ᵥ (fun i => v i * k) = fun i => (R *ᵥ v) i * k := by
  funext i
  simp [Matrix.mulVec, dotProduct, Fin.sum_univ_three]
  ring

/-- `Rᵀ R v = v`. -/
theorem IsRot.tr_mul {R : M3} (h : IsRot R) (v : V3) : Rᵀ *ᵥ (R *ᵥ v) = v := by
  rw [mulVec_mulVec, h.orth, one_mulVec]

theorem IsRot.mul_tr {R : M3} (h : IsRot R) (v : V3) : R *ᵥ (Rᵀ *ᵥ v) = v := by
  rw [mulVec_mulVec, h.orth', one_mulVec]

/-- Camera coordinates of the point of a pixel at an elevation: the ray, scaled. -/
theorem camCoords_pointAtZ (c : FrameCam) {R : M3} (hR : IsRot R) (T : V3) (ji : ℝ × ℝ) (z : ℝ) :
    FrameCam.camCoords R T (c.pointAtZ R T ji z) =
      fun i => c.toCam ji i * ((z - T 2) / (R *ᵥ c.toCam ji) 2) := by
  have : c.pointAtZ R T ji z - T = fun i => (R *ᵥ c.toCam ji) i * ((z - T 2) / (R *ᵥ c.toCam ji) 2) := by
    funext i
    simp [FrameCam.pointAtZ]
  rw [FrameCam.camCoords, this, mulVec_smul', hR.tr_mul]

/-- C32, for one point: projecting the world point of a pixel at an elevation gives the pixel, and the point has the
elevation. -/
theorem C32_pixel_point {c : FrameCam} {R : M3} {T : V3} (h : IsPinhole c R T) (ji : ℝ × ℝ) (z : ℝ)
    (hray : (R *ᵥ c.toCam ji) 2 ≠ 0) (hz : z ≠ T 2) :
    c.projectPt R T (c.pointAtZ R T ji z) = ji ∧ c.pointAtZ R T ji z 2 = z := by
  obtain ⟨s, ctr, hd, -, hp, hcam, -, -, hR⟩ := h.spec
  have hv : c.toCam ji 2 = 1 := by rw [hcam]; simp [kMat_ray s ctr hd]
  constructor
  · rw [FrameCam.projectPt, camCoords_pointAtZ c hR]
    have hk : (z - T 2) / (R *ᵥ c.toCam ji) 2 ≠ 0 := div_ne_zero (sub_ne_zero.2 hz) hray
    have : FrameCam.unitDepth (fun i => c.toCam ji i * ((z - T 2) / (R *ᵥ c.toCam ji) 2)) = c.toCam ji := by
      funext i
      simp only [FrameCam.unitDepth, hv, one_mul]
      exact mul_div_cancel_right₀ _ hk
    rw [this, hp, hcam]
    exact dotK_ray s ctr hd ji
  · show (R *ᵥ c.toCam ji) 2 * ((z - T 2) / (R *ᵥ c.toCam ji) 2) + T 2 = z
    field_simp
    ring

/-- C32, for one point: the world point of the projection of a point, at the elevation of the point, is the point. -/
theorem C32_world_point {c : FrameCam} {R : M3} {T : V3} (h : IsPinhole c R T) (X : V3)
    (hdepth : FrameCam.camCoords R T X 2 ≠ 0) (hz : X 2 ≠ T 2) :
    c.pointAtZ R T (c.projectPt R T X) (X 2) = X := by
  obtain ⟨s, ctr, hd, -, hp, hcam, -, -, hR⟩ := h.spec
  obtain ⟨x, hx⟩ : ∃ x, x = FrameCam.camCoords R T X := ⟨_, rfl⟩
  rw [← hx] at hdepth
  have hu : FrameCam.unitDepth x 2 = 1 := div_self hdepth
  have hv : c.toCam (c.projectPt R T X) = FrameCam.unitDepth x := by
    rw [FrameCam.projectPt, hp, hcam, ← hx]
    exact ray_dotK s ctr hd _ hu
  have hRx : R *ᵥ x = X - T := by rw [hx]; exact hR.mul_tr _
  have hr : R *ᵥ c.toCam (c.projectPt R T X) = fun i => (X - T) i * (x 2)⁻¹ := by
    rw [hv, ← hRx, ← mulVec_smul']
    congr 1
  funext i
  show (R *ᵥ c.toCam (c.projectPt R T X)) i * ((X 2 - T 2) / (R *ᵥ c.toCam (c.projectPt R T X)) 2) + T i = X i
  rw [hr]
  have h2 : X 2 - T 2 ≠ 0 := sub_ne_zero.2 hz
  simp only [Pi.sub_apply]
  field_simp
  ring

/-- C32: `world_to_pixel(pixel_to_world_z(ji, z))` is `ji`, and the world points have the elevation, for pixels with rays
that are not horizontal and elevations other than that of the camera. -/
theorem C32_pixel {c : FrameCam} {R : M3} {T : V3} (h : IsPinhole c R T) (ji : PtArr (ℝ × ℝ)) (z : ℝ) (Xs : List V3)
    (hx : c.pixelToWorldZ ji (.scalar z) = .ok Xs) (hray : ∀ p ∈ ji.cols, (R *ᵥ c.toCam p) 2 ≠ 0) (hz : z ≠ T 2) :
    c.worldToPixel ⟨[3, Xs.length], Xs⟩ = .ok ji.cols ∧ Xs.length = ji.cols.length ∧ ∀ X ∈ Xs, X 2 = z := by
  obtain ⟨s, ctr, hd, -, hp, hcam, -, hext, hR⟩ := h.spec
  have hi : c.testInit = .ok (R, T) := by simp [FrameCam.testInit, hext]
  have hXs : Xs = ji.cols.map fun p => c.pointAtZ R T p z := by
    unfold FrameCam.pixelToWorldZ at hx
    simp only [hi, ok_bind] at hx
    cases hv : validateCoords ji 2 with
    | error e => simp [hv, error_bind] at hx
    | ok u =>
      simp only [hv, ok_bind, validateZ, pairsZ] at hx
      injection hx with hx
      rw [← hx, List.map_map]
      rfl
  subst hXs
  refine ⟨?_, by simp, ?_⟩
  · unfold FrameCam.worldToPixel
    simp only [hi, ok_bind, validateCoords, if_true]
    congr 1
    rw [List.map_map]
    conv_rhs => rw [← List.map_id ji.cols]
    exact List.map_congr_left fun p hp' => (C32_pixel_point h p z (hray p hp') hz).1
  · intro X hX
    obtain ⟨p, hp', rfl⟩ := List.mem_map.1 hX
    exact (C32_pixel_point h p z (hray p hp') hz).2

/-- C32: `pixel_to_world_z(world_to_pixel(xyz), xyz[2])` is `xyz`, for points that are not in the plane of the camera (at
zero depth) or at its elevation. -/
theorem C32_world {c : FrameCam} {R : M3} {T : V3} (h : IsPinhole c R T) (xyz : PtArr V3) (jis : List (ℝ × ℝ))
    (hj : c.worldToPixel xyz = .ok jis) (hdepth : ∀ X ∈ xyz.cols, FrameCam.camCoords R T X 2 ≠ 0)
    (hz : ∀ X ∈ xyz.cols, X 2 ≠ T 2) :
    c.pixelToWorldZ ⟨[2, jis.length], jis⟩ (.arr [jis.length] (xyz.cols.map fun X => X 2)) = .ok xyz.cols := by
  obtain ⟨s, ctr, hd, -, hp, hcam, -, hext, hR⟩ := h.spec
  have hi : c.testInit = .ok (R, T) := by simp [FrameCam.testInit, hext]
  have hjs : jis = xyz.cols.map (c.projectPt R T) := by
    unfold FrameCam.worldToPixel at hj
    simp only [hi, ok_bind] at hj
    cases hv : validateCoords xyz 3 with
    | error e => simp [hv] at hj
    | ok u =>
      simp only [hv, ok_bind] at hj
      injection hj with hj
      exact hj.symm
  subst hjs
  have hpairs : npBroadcast (xyz.cols.map (c.projectPt R T)) (xyz.cols.map fun X => X 2) =
      .ok (xyz.cols.map fun X => (c.projectPt R T X, X 2)) := by
    generalize xyz.cols = l
    match l with
    | [] => rfl
    | [a] => rfl
    | a :: b :: l => simp [npBroadcast, List.zip_map']
  unfold FrameCam.pixelToWorldZ
  simp only [hi, ok_bind, validateCoords, if_true, numCols, validateZ, ne_eq, not_true, and_false, if_false, pairsZ,
    hpairs]
  congr 1
  rw [List.map_map]
  conv_rhs => rw [← List.map_id xyz.cols]
  exact List.map_congr_left fun X hX => C32_world_point h X (hdepth X hX) (hz X hX)

/-- A camera meeting the assumptions: 10 above the origin, looking down. -/
def demoCam : FrameCam :=
  { imSize := (4, 3), K := kMat (4, 4) (3 / 2, 1), Kund := kMat (4, 4) (3 / 2, 1), KundInv := (kMat (4, 4) (3 / 2, 1))⁻¹
    ext := some (extrinsicR (0, 0, 0), ![0, 0, 10]), distort := true
    camToPix := dotK (kMat (4, 4) (3 / 2, 1)), pixToCam := fun ji => (kMat (4, 4) (3 / 2, 1))⁻¹ *ᵥ homog ji }

theorem isPinhole_demoCam : IsPinhole demoCam (extrinsicR (0, 0, 0)) ![0, 0, 10] := by
  refine ⟨(4, 3), [1], none, 0, 0, (0, 0, 0), true, ?_, rfl⟩
  have hK : getIntrinsic (4, 3) [1] none 0 0 = .ok (kMat (4, 4) (3 / 2, 1)) := by
    simp only [getIntrinsic, focalPair, sigmaXY, centreXY]
    show Except.ok _ = _
    norm_num
  have hd : (kMat (4, 4) (3 / 2, 1)).det ≠ 0 := by rw [kMat_det]; norm_num
  unfold pinhole
  rw [hK, ok_bind, if_neg hd]
  rfl

theorem extrinsicR_zero : extrinsicR (0, 0, 0) = flipYZ := by
  rw [extrinsicR, C33_opk_entries]
  ext i j
  fin_cases i <;> fin_cases j <;> simp [flipYZ, Matrix.mul_apply, Fin.sum_univ_three]

theorem demoCam_ray (ji : ℝ × ℝ) :
    extrinsicR (0, 0, 0) *ᵥ demoCam.toCam ji = ![(ji.1 - 3 / 2) / 4, -((ji.2 - 1) / 4), -1] := by
  have hd : (kMat (4, 4) (3 / 2, 1)).det ≠ 0 := by rw [kMat_det]; norm_num
  have : demoCam.toCam ji = (kMat (4, 4) (3 / 2, 1))⁻¹ *ᵥ homog ji := rfl
  rw [this, kMat_ray _ _ hd, extrinsicR_zero]
  funext i
  fin_cases i <;> simp [flipYZ, Matrix.mulVec, dotProduct, Fin.sum_univ_three]

example (z : ℝ) (hz : z ≠ 10) : demoCam.projectPt (extrinsicR (0, 0, 0)) ![0, 0, 10]
    (demoCam.pointAtZ (extrinsicR (0, 0, 0)) ![0, 0, 10] (3, 1) z) = (3, 1) :=
  (C32_pixel_point isPinhole_demoCam (3, 1) z (by rw [demoCam_ray]; simp) (by simpa using hz)).1

/-! ## C37 -/

/-- C37: with a sensor size, scaling it and the focal length by the same factor changes nothing. -/
theorem C37_scale (im : ℕ × ℕ) (focal sensor : List ℝ) (cx cy k : ℝ) (hk : k ≠ 0) :
    getIntrinsic im (focal.map (k * ·)) (some (sensor.map (k * ·))) cx cy =
      getIntrinsic im focal (some sensor) cx cy := by
  have hs : ∀ a b c : ℝ, k * a * b / (k * c) = a * b / c := fun a b c => by
    rw [mul_assoc, mul_div_mul_left _ _ hk]
  match sensor, focal with
  | [], _ => rfl
  | [_], _ => rfl
  | _ :: _ :: _ :: _, _ => rfl
  | [a, b], [] => rfl
  | [a, b], [f] =>
    show Except.ok (kMat (k * f * im.1 / (k * a), k * f * im.2 / (k * b)) _) = _
    rw [hs, hs]; rfl
  | [a, b], [f, g] =>
    show Except.ok (kMat (k * f * im.1 / (k * a), k * g * im.2 / (k * b)) _) = _
    rw [hs, hs]; rfl
  | [a, b], _ :: _ :: _ :: _ => rfl

/-- C37: with a sensor size, the field of view of a pixel row is the one of the sensor: the focal length in pixels is to the
image size as the focal length is to the sensor size. -/
theorem C37_sensor (im : ℕ × ℕ) (f sx sy cx cy : ℝ) (hx : sx ≠ 0) (hy : sy ≠ 0) (K : M3)
    (h : getIntrinsic im [f] (some [sx, sy]) cx cy = .ok K) :
    K 0 0 * sx = f * im.1 ∧ K 1 1 * sy = f * im.2 := by
  injection h with h
  subst h
  simp only [kMat, sigmaXY]
  constructor <;> simp <;> field_simp

/-- C37, the part that holds: without a sensor size, for landscape and square images, the focal length is taken as
normalised by the larger of sensor width and height, and pixels are square.  Missing: portrait images
(`C37_portrait_fails`). -/
theorem C37_landscape_partial (im : ℕ × ℕ) (f cx cy : ℝ) (hw : im.2 ≤ im.1) (K : M3)
    (h : getIntrinsic im [f] none cx cy = .ok K) :
    K 0 0 = f * (max im.1 im.2 : ℕ) ∧ K 1 1 = f * (max im.1 im.2 : ℕ) := by
  injection h with h
  subst h
  rw [max_eq_left hw]
  simp [kMat, sigmaXY]

/-- C37: for every portrait image and focal length, the focal length is not taken as normalised by the larger of sensor
width and height, as documented, but by the width. -/
theorem C37_portrait_fails (im : ℕ × ℕ) (f cx cy : ℝ) (hf : f ≠ 0) (hw : im.1 < im.2) :
    ∃ K, getIntrinsic im [f] none cx cy = .ok K ∧ K 0 0 ≠ f * (max im.1 im.2 : ℕ) ∧ K 0 0 = f * im.1 := by
  refine ⟨_, rfl, ?_, rfl⟩
  rw [max_eq_right hw.le]
  intro h
  have : f * (im.1 : ℝ) = f * im.2 := h
  have := mul_left_cancel₀ hf this
  have : im.1 = im.2 := by exact_mod_cast this
  omega

/-- C37: with no offsets the principal point is the centre of the image. -/
theorem C37_centre (im : ℕ × ℕ) (focal : List ℝ) (sensor : Option (List ℝ)) (K : M3)
    (h : getIntrinsic im focal sensor 0 0 = .ok K) : K 0 2 = ((im.1 : ℝ) - 1) / 2 ∧ K 1 2 = ((im.2 : ℝ) - 1) / 2 := by
  obtain ⟨f, s, -, -, rfl⟩ := getIntrinsic_ok h
  simp [kMat, centreXY]

/-- C37: with two focal lengths and a sensor size, the first is for x and the second for y. -/
theorem C37_two_focal (im : ℕ × ℕ) (fx fy sx sy cx cy : ℝ) (hx : sx ≠ 0) (hy : sy ≠ 0) (K : M3)
    (h : getIntrinsic im [fx, fy] (some [sx, sy]) cx cy = .ok K) :
    K 0 0 * sx = fx * im.1 ∧ K 1 1 * sy = fy * im.2 := by
  injection h with h
  subst h
  simp only [kMat, sigmaXY]
  constructor <;> simp <;> field_simp

/-- C37: offsets move the principal point from the centre of the image by that part of its larger side, and the matrix has no
skew. -/
theorem C37_offsets (im : ℕ × ℕ) (focal : List ℝ) (sensor : Option (List ℝ)) (cx cy : ℝ) (K : M3)
    (h : getIntrinsic im focal sensor cx cy = .ok K) :
    K 0 2 - ((im.1 : ℝ) - 1) / 2 = cx * max im.1 im.2 ∧ K 1 2 - ((im.2 : ℝ) - 1) / 2 = cy * max im.1 im.2 ∧
    K 0 1 = 0 ∧ K 1 0 = 0 ∧ K 2 0 = 0 ∧ K 2 1 = 0 ∧ K 2 2 = 1 := by
  obtain ⟨f, s, -, -, rfl⟩ := getIntrinsic_ok h
  simp [kMat, centreXY, mul_comm]

/-- C37: other numbers of focal lengths or sensor sizes are rejected. -/
theorem C37_rejects (im : ℕ × ℕ) (focal : List ℝ) (sensor : Option (List ℝ)) (cx cy : ℝ) :
    (getIntrinsic im focal sensor cx cy = .error .valueError ↔
      (focal.length ≠ 1 ∧ focal.length ≠ 2) ∨ ∃ l, sensor = some l ∧ l.length ≠ 2) ∧
    (getIntrinsic im focal sensor cx cy = .error .valueError ∨ ∃ K, getIntrinsic im focal sensor cx cy = .ok K) := by
  match sensor, focal with
  | none, [] => exact ⟨⟨fun _ => by simp, fun _ => rfl⟩, .inl rfl⟩
  | none, [f] => exact ⟨⟨fun h => by injection h, by simp⟩, .inr ⟨_, rfl⟩⟩
  | none, [f, g] => exact ⟨⟨fun h => by injection h, by simp⟩, .inr ⟨_, rfl⟩⟩
  | none, _ :: _ :: _ :: _ => exact ⟨⟨fun _ => by simp, fun _ => rfl⟩, .inl rfl⟩
  | some [], _ => exact ⟨⟨fun _ => by simp, fun _ => rfl⟩, .inl rfl⟩
  | some [_], _ => exact ⟨⟨fun _ => by simp, fun _ => rfl⟩, .inl rfl⟩
  | some (_ :: _ :: _ :: _), _ => exact ⟨⟨fun _ => by simp, fun _ => rfl⟩, .inl rfl⟩
  | some [a, b], [] => exact ⟨⟨fun _ => by simp, fun _ => rfl⟩, .inl rfl⟩
  | some [a, b], [f] => exact ⟨⟨fun h => by injection h, by simp⟩, .inr ⟨_, rfl⟩⟩
  | some [a, b], [f, g] => exact ⟨⟨fun h => by injection h, by simp⟩, .inr ⟨_, rfl⟩⟩
  | some [a, b], _ :: _ :: _ :: _ => exact ⟨⟨fun _ => by simp, fun _ => rfl⟩, .inl rfl⟩

/-- C37: a camera is made of focal lengths (and a sensor size that is not zero) exactly when no focal length is zero; otherwise `ValueError` is
raised. -/
theorem C37_singular (im : ℕ × ℕ) (hw : 0 < im.1) (hh : 0 < im.2) (focal : List ℝ) (hf : focal.length = 1 ∨ focal.length = 2)
    (sensor : Option (ℝ × ℝ)) (hs : ∀ s, sensor = some s → s.1 ≠ 0 ∧ s.2 ≠ 0) (cx cy : ℝ) (xyz : Option V3) (opk : Option (ℝ × ℝ × ℝ))
    (distort : Bool) (r : Res FrameCam) (hr : r = pinhole im focal (sensor.map fun s => [s.1, s.2]) cx cy xyz opk distort) :
    ((0 : ℝ) ∈ focal → r = .error .valueError) ∧ ((0 : ℝ) ∉ focal → ∃ c, r = .ok c ∧ c.imSize = im) := by
  have hw' : (im.1 : ℝ) ≠ 0 := by positivity
  have hh' : (im.2 : ℝ) ≠ 0 := by positivity
  subst hr
  unfold pinhole
  obtain ⟨fx, fy, hfp, hz⟩ : ∃ fx fy, focalPair focal = .ok (fx, fy) ∧ ((0 : ℝ) ∈ focal ↔ fx = 0 ∨ fy = 0) := by
    match focal, hf with
    | [x], _ => exact ⟨x, x, rfl, by simp [eq_comm]⟩
    | [x, y], _ => exact ⟨x, y, rfl, by simp [eq_comm]⟩
  have hK : ∃ s c : ℝ × ℝ, getIntrinsic im focal (sensor.map fun s => [s.1, s.2]) cx cy = .ok (kMat s c) ∧ ((0 : ℝ) ∈ focal ↔ s.1 = 0 ∨ s.2 = 0) := by
    unfold getIntrinsic
    rw [hfp]
    cases sensor with
    | none => exact ⟨sigmaXY im (fx, fy) none, _, rfl, by rw [hz]; simp [sigmaXY, hw']⟩
    | some s =>
      obtain ⟨h1, h2⟩ := hs s rfl
      exact ⟨sigmaXY im (fx, fy) (some s), _, rfl, by rw [hz]; simp [sigmaXY, hw', hh', h1, h2]⟩
  obtain ⟨s, c, hK, hz⟩ := hK
  rw [hK, ok_bind, hz]
  have hd : (kMat s c).det = 0 ↔ s.1 = 0 ∨ s.2 = 0 := by
    simp [kMat, det_fin_three]
  rw [← hd]
  exact ⟨fun h => by rw [if_pos h], fun h => ⟨_, by rw [if_neg h]; rfl, rfl⟩⟩

/-- Cameras of 4 by 3 pixels with focal lengths (2, 0) and (2, 1). -/
example : pinhole (4, 3) [2, 0] (some [4, 3]) 0 0 none none true = .error .valueError ∧
    ∃ c, pinhole (4, 3) [2, 1] (some [4, 3]) 0 0 none none true = .ok c ∧ c.imSize = (4, 3) :=
  ⟨(C37_singular (4, 3) (by decide) (by decide) [2, 0] (.inr rfl) (some (4, 3)) (by simp) 0 0 none none true _ rfl).1 (by simp),
    (C37_singular (4, 3) (by decide) (by decide) [2, 1] (.inr rfl) (some (4, 3)) (by simp) 0 0 none none true _ rfl).2 (by simp)⟩

/-! ## C38 -/

/-- Interior parameters from a calibrated matrix, orthority/fit.py:276-288: focal lengths, sensor size and principal point
offsets. -/
def fitInterior (im : ℕ × ℕ) (K : M3) : List ℝ × List ℝ × ℝ × ℝ :=
  let m : ℝ := (max im.1 im.2 : ℕ)
  ([K 0 0, K 1 1], [(im.1 : ℝ), (im.2 : ℝ)], (K 0 2 - ((im.1 : ℝ) - 1) / 2) / m, (K 1 2 - ((im.2 : ℝ) - 1) / 2) / m)

/-- C38: the fitted interior parameters rebuild the calibrated intrinsic matrix (which has no skew, as OpenCV's calibration
functions with the flags used give). -/
theorem C38_rebuild (im : ℕ × ℕ) (hw : 0 < im.1) (hh : 0 < im.2) (K : M3) (h01 : K 0 1 = 0) (h10 : K 1 0 = 0)
    (h20 : K 2 0 = 0) (h21 : K 2 1 = 0) (h22 : K 2 2 = 1) :
    getIntrinsic im (fitInterior im K).1 (some (fitInterior im K).2.1) (fitInterior im K).2.2.1
      (fitInterior im K).2.2.2 = .ok K := by
  have hw' : (im.1 : ℝ) ≠ 0 := by positivity
  have hh' : (im.2 : ℝ) ≠ 0 := by positivity
  have hm : ((max im.1 im.2 : ℕ) : ℝ) ≠ 0 := by
    have : 0 < max im.1 im.2 := lt_max_of_lt_left hw
    positivity
  show Except.ok _ = _
  congr 1
  simp only [kMat, sigmaXY, centreXY, fitInterior, mul_div_cancel₀ _ hm, mul_div_cancel_right₀ _ hw',
    mul_div_cancel_right₀ _ hh']
  ext i j
  fin_cases i <;> fin_cases j <;> simp [h01, h10, h20, h21, h22]

/-- OpenCV's projection of a point without distortion: `cv2.projectPoints(X, r, t, K, 0)`. -/
def cvProject (Rcv : M3) (t : V3) (K : M3) (X : V3) : ℝ × ℝ :=
  let x := Rcv *ᵥ X + t
  (K 0 0 * (x 0 / x 2) + K 0 2, K 1 1 * (x 1 / x 2) + K 1 2)

/-- C38: a pinhole camera made from the fitted parameters projects every world point (other than those at zero depth) to
where OpenCV's calibrated model does.  The world coordinates given to OpenCV are relative to `ref`.  Missing: poses with phi
of 90 or -90 degrees, see `C34_gimbal_fails`. -/
theorem C38_projection_partial (im : ℕ × ℕ) (hw : 0 < im.1) (hh : 0 < im.2) (K : M3) (h01 : K 0 1 = 0) (h10 : K 1 0 = 0)
    (h20 : K 2 0 = 0) (h21 : K 2 1 = 0) (h22 : K 2 2 = 1) (r t ref X : V3) (hg : rodrigues r 2 0 ^ 2 ≠ 1)
    (c : FrameCam) (R : M3) (T : V3) (distort : Bool)
    (hc : pinhole im (fitInterior im K).1 (some (fitInterior im K).2.1) (fitInterior im K).2.2.1
      (fitInterior im K).2.2.2 (some (cvExtToOtyExt t (rodrigues r) (some ref)).1)
      (some (cvExtToOtyExt t (rodrigues r) (some ref)).2) distort = .ok c) (hext : c.ext = some (R, T))
    (hdepth : (rodrigues r *ᵥ (X - ref) + t) 2 ≠ 0) :
    c.projectPt R T X = cvProject (rodrigues r) t K (X - ref) := by
  unfold pinhole at hc
  rw [C38_rebuild im hw hh K h01 h10 h20 h21 h22, ok_bind] at hc
  by_cases hd : K.det = 0
  · rw [if_pos hd] at hc; cases hc
  rw [if_neg hd] at hc
  injection hc with hc
  have he : (R, T) = (extrinsicR (cvExtToOtyExt t (rodrigues r) (some ref)).2, (cvExtToOtyExt t (rodrigues r) (some ref)).1) := by
    rw [← hc] at hext
    simpa [getExtrinsic] using hext.symm
  injection he with hR hT
  have hx : FrameCam.camCoords R T X = rodrigues r *ᵥ (X - ref) + t := by
    rw [FrameCam.camCoords, hR, hT]
    exact C35_rodrigues_partial r t X (some ref) hg
  have htp : c.toPix = dotK K := by
    rw [← hc]; funext x; unfold FrameCam.toPix; cases distort <;> rfl
  rw [FrameCam.projectPt, htp, hx, cvProject]
  generalize rodrigues r *ᵥ (X - ref) + t = x at *
  simp [dotK, FrameCam.unitDepth, Matrix.mulVec, dotProduct, Fin.sum_univ_three, h01, h10, hdepth]

/-- C38: skew would be lost. -/
theorem C38_skew_fails : ∃ K : M3, K.det ≠ 0 ∧ ∀ K',
    getIntrinsic (4, 3) (fitInterior (4, 3) K).1 (some (fitInterior (4, 3) K).2.1) (fitInterior (4, 3) K).2.2.1
      (fitInterior (4, 3) K).2.2.2 = .ok K' → K' ≠ K := by
  refine ⟨!![4, 1, 3 / 2; 0, 4, 1; 0, 0, 1], by simp [det_fin_three], fun K' h hk => ?_⟩
  injection h with h
  have h1 := congrFun (congrFun (h.trans hk) 0) 1
  simp [kMat] at h1

/-! ## C39 -/

/-- The world aligned ray of a pixel changes linearly over the image. -/
theorem IsPinhole.ray {c : FrameCam} {R : M3} {T : V3} (h : IsPinhole c R T) :
    ∃ a b k : ℝ, ∀ p : ℝ × ℝ, (R *ᵥ c.toCam p) 2 = a * p.1 + b * p.2 + k := by
  obtain ⟨s, ctr, hd, -, -, hcam, -, -, -⟩ := h.spec
  refine ⟨R 2 0 / s.1, R 2 1 / s.2, R 2 2 - R 2 0 * ctr.1 / s.1 - R 2 1 * ctr.2 / s.2, fun p => ?_⟩
  rw [hcam]
  simp only [kMat_ray s ctr hd]
  simp [Matrix.mulVec, dotProduct, Fin.sum_univ_three]
  ring

theorem IsPinhole.horizon {c : FrameCam} {R : M3} {T : V3} (h : IsPinhole c R T) :
    c.horizonFov = .ok false ↔ ∀ p ∈ boundary8 c.imSize, (R *ᵥ c.toCam p) 2 < 0 := by
  obtain ⟨s, ctr, hd, -, -, hcam, hpc, hext, -⟩ := h.spec
  have hi : c.testInit = .ok (R, T) := by simp [FrameCam.testInit, hext]
  unfold FrameCam.horizonFov
  rw [hi, ok_bind, hcam, hpc]
  constructor
  · intro hh p hp
    injection hh with hh
    have := of_decide_eq_false hh
    push Not at this
    exact this p hp
  · intro hh
    show Except.ok _ = _
    congr 1
    apply decide_eq_false
    push Not
    exact hh

/-- C39: if the horizon check passes, the ray of every pixel of the image points down. -/
theorem C39_rays {c : FrameCam} {R : M3} {T : V3} (h : IsPinhole c R T) (hh : c.horizonFov = .ok false) (j i : ℝ)
    (hj0 : 0 ≤ j) (hj1 : j ≤ (c.imSize.1 : ℝ) - 1) (hi0 : 0 ≤ i) (hi1 : i ≤ (c.imSize.2 : ℝ) - 1) :
    (R *ᵥ c.toCam (j, i)) 2 < 0 := by
  have hb := h.horizon.1 hh
  obtain ⟨a, b, k, hray⟩ := h.ray
  simp only [hray] at hb ⊢
  have h1 := hb (0, 0) (by simp [boundary8])
  have h2 := hb ((c.imSize.1 : ℝ) - 1, 0) (by simp [boundary8])
  have h3 := hb ((c.imSize.1 : ℝ) - 1, (c.imSize.2 : ℝ) - 1) (by simp [boundary8])
  have h4 := hb (0, (c.imSize.2 : ℝ) - 1) (by simp [boundary8])
  simp only at h1 h2 h3 h4
  rcases le_total 0 a with ha | ha <;> rcases le_total 0 b with hb' | hb' <;> nlinarith

/-- C39: if the horizon check passes, the world point of every pixel of the image at every elevation below the camera is in
front of the camera, at the elevation. -/
theorem C39_front {c : FrameCam} {R : M3} {T : V3} (h : IsPinhole c R T) (hh : c.horizonFov = .ok false) (j i z : ℝ)
    (hj0 : 0 ≤ j) (hj1 : j ≤ (c.imSize.1 : ℝ) - 1) (hi0 : 0 ≤ i) (hi1 : i ≤ (c.imSize.2 : ℝ) - 1) (hz : z < T 2) :
    0 < FrameCam.camCoords R T (c.pointAtZ R T (j, i) z) 2 ∧ c.pointAtZ R T (j, i) z 2 = z := by
  have hr := C39_rays h hh j i hj0 hj1 hi0 hi1
  obtain ⟨s, ctr, hd, -, -, hcam, -, -, hR⟩ := h.spec
  refine ⟨?_, (C32_pixel_point h (j, i) z hr.ne hz.ne).2⟩
  rw [camCoords_pointAtZ c hR]
  have hv : c.toCam (j, i) 2 = 1 := by rw [hcam]; simp [kMat_ray s ctr hd]
  simp only [hv, one_mul]
  exact div_pos_of_neg_of_neg (by linarith) hr

/-- C39: the check is exact: it fails only if some pixel of the image has a ray that does not point down. -/
theorem C39_exact {c : FrameCam} {R : M3} {T : V3} (h : IsPinhole c R T) (hw : 0 < c.imSize.1) (hh : 0 < c.imSize.2)
    (hf : c.horizonFov ≠ .ok false) :
    ∃ j i : ℝ, 0 ≤ j ∧ j ≤ (c.imSize.1 : ℝ) - 1 ∧ 0 ≤ i ∧ i ≤ (c.imSize.2 : ℝ) - 1 ∧ 0 ≤ (R *ᵥ c.toCam (j, i)) 2 := by
  rw [Ne, h.horizon] at hf
  push Not at hf
  obtain ⟨p, hp, hz⟩ := hf
  have hw' : (1 : ℝ) ≤ c.imSize.1 := by exact_mod_cast hw
  have hh' : (1 : ℝ) ≤ c.imSize.2 := by exact_mod_cast hh
  refine ⟨p.1, p.2, ?_, ?_, ?_, ?_, hz⟩ <;>
  · simp only [boundary8, List.mem_cons, List.not_mem_nil, or_false] at hp
    rcases hp with rfl | rfl | rfl | rfl | rfl | rfl | rfl | rfl <;> simp only <;> linarith

example : demoCam.horizonFov = .ok false :=
  isPinhole_demoCam.horizon.2 fun p _ => by rw [demoCam_ray]; simp

/-! ## C40 -/

/-- C40: a world point behind the camera is projected where its mirror image in the camera position is. -/
theorem C40_mirror {c : FrameCam} {R : M3} {T : V3} (X : V3) :
    c.projectPt R T (T + T - X) = c.projectPt R T X := by
  have : FrameCam.camCoords R T (T + T - X) = -FrameCam.camCoords R T X := by
    rw [FrameCam.camCoords, FrameCam.camCoords, ← mulVec_neg]
    congr 1
    funext i
    simp
    ring
  rw [FrameCam.projectPt, this, FrameCam.projectPt]
  congr 1
  funext i
  simp [FrameCam.unitDepth, neg_div_neg_eq]

/-- C40: a point 10 above a camera that looks down is projected to the centre of its image. -/
theorem C40_fails : IsPinhole demoCam (extrinsicR (0, 0, 0)) ![0, 0, 10] ∧
    FrameCam.camCoords (extrinsicR (0, 0, 0)) ![0, 0, 10] ![0, 0, 20] 2 < 0 ∧
    demoCam.projectPt (extrinsicR (0, 0, 0)) ![0, 0, 10] ![0, 0, 20] = (3 / 2, 1) := by
  refine ⟨isPinhole_demoCam, ?_, ?_⟩
  · rw [extrinsicR_zero]
    simp [FrameCam.camCoords, flipYZ, Matrix.mulVec, dotProduct, Fin.sum_univ_three]
    norm_num
  · have : demoCam.toPix = dotK (kMat (4, 4) (3 / 2, 1)) := rfl
    rw [FrameCam.projectPt, this, dotK_kMat, extrinsicR_zero]
    simp [FrameCam.camCoords, FrameCam.unitDepth, flipYZ, Matrix.mulVec, dotProduct, Fin.sum_univ_three]
    norm_num

/-- C40, the part that holds: if the horizon check passes, world points below the camera (and not at zero depth) that project
into the image are in front of it.  Missing: points above the camera (`C40_fails`). -/
theorem C40_below_partial {c : FrameCam} {R : M3} {T : V3} (h : IsPinhole c R T) (hh : c.horizonFov = .ok false) (X : V3)
    (hX : X 2 < T 2) (hd : FrameCam.camCoords R T X 2 ≠ 0)
    (hj0 : 0 ≤ (c.projectPt R T X).1) (hj1 : (c.projectPt R T X).1 ≤ (c.imSize.1 : ℝ) - 1)
    (hi0 : 0 ≤ (c.projectPt R T X).2) (hi1 : (c.projectPt R T X).2 ≤ (c.imSize.2 : ℝ) - 1) :
    0 < FrameCam.camCoords R T X 2 := by
  have h1 := (C39_front h hh _ _ (X 2) hj0 hj1 hi0 hi1 hX).1
  rwa [Prod.mk.eta, C32_world_point h X hd hX.ne] at h1

/-! ## C60 -/

/-- Elevations that go with `n` pixels: one, as many as pixels, or any number for one pixel. -/
def ZArg.Fits : ZArg → ℕ → Prop
  | .scalar _, _ => True
  | .arr shape _, n => ∃ m, shape = [m] ∧ (m = 1 ∨ n = 1 ∨ m = n)

/-- Number of pixel and elevation pairs. -/
def ZArg.count : ZArg → ℕ → ℕ
  | .scalar _, n => n
  | .arr _ vals, n => if vals.length = 1 then n else vals.length

/-- Elevation of pair `k`. -/
def ZArg.at : ZArg → ℕ → Option ℝ
  | .scalar z, _ => some z
  | .arr _ vals, k => if vals.length = 1 then vals[0]? else vals[k]?

/-- Pixel of pair `k`. -/
def pixAt {α : Type} (l : List α) (k : ℕ) : Option α := if l.length = 1 then l[0]? else l[k]?

theorem npBroadcast_fits {α β : Type} (as : List α) (bs : List β)
    (h : bs.length = 1 ∨ as.length = 1 ∨ bs.length = as.length) :
    ∃ l, npBroadcast as bs = .ok l ∧ l.length = (if bs.length = 1 then as.length else bs.length) ∧
      ∀ k < l.length, l[k]? = (pixAt as k).bind fun a => (pixAt bs k).map fun b => (a, b) := by
  match as, bs with
  | [], [b] => exact ⟨[], rfl, rfl, by simp⟩
  | [a], [b] => exact ⟨[(a, b)], rfl, rfl, by intro k hk; simp at hk; subst hk; simp [pixAt]⟩
  | a :: a' :: as, [b] =>
    refine ⟨_, rfl, by simp, fun k hk => ?_⟩
    simp only [pixAt, List.getElem?_map]
    cases h : (a :: a' :: as)[k]? <;> simp
  | [], [] => exact ⟨[], rfl, rfl, by simp⟩
  | [], b :: b' :: bs => simp at h
  | [a], [] => exact ⟨[], rfl, rfl, by simp⟩
  | [a], b :: b' :: bs =>
    refine ⟨_, rfl, by simp, fun k hk => ?_⟩
    simp only [pixAt, List.getElem?_map]
    cases h : (b :: b' :: bs)[k]? <;> simp
  | a :: a' :: as, [] => simp at h
  | a :: a' :: as, b :: b' :: bs =>
    have hl : as.length = bs.length := by simpa [eq_comm] using h
    refine ⟨_, by simp only [npBroadcast]; rw [if_pos (by simp [hl])], by simp [hl], fun k hk => ?_⟩
    simp only [pixAt, List.length_cons]
    rw [if_neg (by omega), if_neg (by omega), List.zip_eq_zipWith, List.getElem?_zipWith]
    cases (a :: a' :: as)[k]? <;> cases (b :: b' :: bs)[k]? <;> rfl

/-- C60: for the accepted shapes `pixel_to_world_z` returns one world point for each pair of pixel and elevation. -/
theorem C60_points (c : FrameCam) (R : M3) (T : V3) (hext : c.ext = some (R, T)) (ji : PtArr (ℝ × ℝ)) (z : ZArg)
    (n : ℕ) (hji : ji.Ok 2) (hz : z.Ok) (hs : ji.shape = [2, n]) (hf : z.Fits n) :
    ∃ Xs, c.pixelToWorldZ ji z = .ok Xs ∧ Xs.length = z.count n ∧
      ∀ k < Xs.length, ∃ p v, pixAt ji.cols k = some p ∧ z.at k = some v ∧ Xs[k]? = some (c.pointAtZ R T p v) := by
  have hn : ji.cols.length = n := hji n hs
  have hi : c.testInit = .ok (R, T) := by simp [FrameCam.testInit, hext]
  have hv : validateCoords ji 2 = .ok () := by simp [validateCoords, hs]
  have hc : numCols ji = n := by simp [numCols, hs]
  cases z with
  | scalar v =>
    refine ⟨ji.cols.map fun p => c.pointAtZ R T p v, ?_, ?_, ?_⟩
    · unfold FrameCam.pixelToWorldZ
      simp only [hi, ok_bind, hv, validateZ, pairsZ]
      show Except.ok _ = _
      rw [List.map_map]
      rfl
    · simp [ZArg.count, hn]
    · intro k hk
      rw [List.length_map] at hk
      refine ⟨ji.cols[k], v, ?_, rfl, by simp [hk]⟩
      by_cases h1 : ji.cols.length = 1
      · have : k = 0 := by omega
        subst this
        simp [pixAt, hk]
      · simp [pixAt, h1, hk]
  | arr shape vals =>
    obtain ⟨m, rfl, hm⟩ := hf
    have hl : vals.length = m := hz m rfl
    have hvz : validateZ (.arr [m] vals) n = .ok () := by
      simp only [validateZ]
      rw [if_neg]
      rintro ⟨h1, h2, h3⟩
      rcases hm with h | h | h <;> contradiction
    obtain ⟨l, hl1, hl2, hl3⟩ := npBroadcast_fits ji.cols vals (by rw [hl, hn]; exact hm)
    refine ⟨l.map fun p => c.pointAtZ R T p.1 p.2, ?_, ?_, ?_⟩
    · unfold FrameCam.pixelToWorldZ
      simp only [hi, ok_bind, hv, hc, hvz, pairsZ, hl1]
      rfl
    · simp [ZArg.count, hl2, hn]
    · intro k hk
      rw [List.length_map] at hk
      have h3 := hl3 k hk
      rw [List.getElem?_eq_getElem hk] at h3
      cases hp : pixAt ji.cols k with
      | none => simp [hp] at h3
      | some p =>
        cases hq : pixAt vals k with
        | none => simp [hp, hq] at h3
        | some q =>
          simp only [hp, hq, Option.bind_some, Option.map_some, Option.some.injEq] at h3
          exact ⟨p, q, rfl, hq, by simp [hk, h3]⟩

/-- C60: other shapes are rejected with `ValueError`. -/
theorem C60_rejects (c : FrameCam) (e : M3 × V3) (hext : c.ext = some e) (ji : PtArr (ℝ × ℝ)) (z : ZArg)
    (h : ¬ ∃ n, ji.shape = [2, n] ∧ z.Fits n) : c.pixelToWorldZ ji z = .error .valueError := by
  have hi : c.testInit = .ok e := by simp [FrameCam.testInit, hext]
  unfold FrameCam.pixelToWorldZ
  simp only [hi, ok_bind]
  by_cases hs : ∃ n, ji.shape = [2, n]
  · obtain ⟨n, hs⟩ := hs
    have hv : validateCoords ji 2 = .ok () := by simp [validateCoords, hs]
    have hc : numCols ji = n := by simp [numCols, hs]
    have hf : ¬ z.Fits n := fun hf => h ⟨n, hs, hf⟩
    have hvz : validateZ z n = .error .valueError := by
      match z with
      | .scalar v => exact absurd trivial hf
      | .arr [] _ => rfl
      | .arr (_ :: _ :: _) _ => rfl
      | .arr [m] vals =>
        simp only [validateZ]
        rw [if_pos]
        exact ⟨fun h1 => hf ⟨m, rfl, .inl h1⟩, fun h1 => hf ⟨m, rfl, .inr (.inl h1)⟩, fun h1 => hf ⟨m, rfl, .inr (.inr h1)⟩⟩
    simp only [hv, ok_bind, hc, hvz]
    rfl
  · have hv : validateCoords ji 2 = .error .valueError := by
      unfold validateCoords
      split
      · rename_i m n hmn
        rw [if_neg]
        rintro rfl
        exact hs ⟨n, hmn⟩
      · rfl
    simp only [hv]
    rfl

/-- C60: without exterior parameters a `CameraInitError` is raised, whatever the shapes. -/
theorem C60_no_exterior (c : FrameCam) (hext : c.ext = none) (ji : PtArr (ℝ × ℝ)) (z : ZArg) (xyz : PtArr V3) :
    c.pixelToWorldZ ji z = .error .cameraInitError ∧ c.worldToPixel xyz = .error .cameraInitError := by
  have hi : c.testInit = .error .cameraInitError := by simp [FrameCam.testInit, hext]
  constructor
  · unfold FrameCam.pixelToWorldZ; rw [hi]; rfl
  · unfold FrameCam.worldToPixel; rw [hi]; rfl

/-- One pixel with three elevations. -/
example : (ZArg.arr [3] [1, 2, 3]).Fits 1 ∧ (ZArg.arr [3] [1, 2, 3]).count 1 = 3 ∧ ¬ (ZArg.arr [3] [1, 2, 3]).Fits 2 :=
  ⟨⟨3, rfl, by simp⟩, rfl, by rintro ⟨m, hm, h⟩; simp at hm; omega⟩

end

end Verif.Frame
