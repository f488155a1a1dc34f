import Verif.Base.Nan
import Verif.Frame.Pinhole
import Mathlib.Analysis.SpecialFunctions.Trigonometric.Arctan
import Mathlib.Analysis.SpecialFunctions.Trigonometric.Bounds

/-!
# Distortion (C43 to C46)
-/

set_option autoImplicit false

namespace Verif.Frame

open Matrix Real
open Res (ok_bind error_bind)

noncomputable section

/-! ## Distortion models -/

/-- orthority/camera.py:1346-1360 `BrownCamera._camera_to_pixel`: distorted camera coordinates. -/
def brownDistort (k1 k2 p1 p2 k3 : ℝ) (x : V3) : V3 :=
  let x2 := x 0 ^ 2
  let y2 := x 1 ^ 2
  let xy := x 0 * x 1
  let r2 := x2 + y2
  let radial := 1 + r2 * (k1 + r2 * (k2 + r2 * k3))
  let xt := 2 * p1 * xy + p2 * (r2 + 2 * x2)
  let yt := p1 * (r2 + 2 * y2) + 2 * p2 * xy
  ![x 0 * radial + xt, x 1 * radial + yt, x 2]

/-- Entry `i` of a coefficient vector; coefficients that are missing are zero for OpenCV. -/
def coef (d : List ℝ) (i : ℕ) : ℝ := d.getD i 0

/-- OpenCV's tilted sensor transform (documentation of the module calib3d), of distorted camera coordinates. -/
def cvTilt (tx ty x y : ℝ) : ℝ × ℝ :=
  let R : M3 := !![cos ty, 0, -sin ty; 0, 1, 0; sin ty, 0, cos ty] * !![1, 0, 0; 0, cos tx, sin tx; 0, -sin tx, cos tx]
  let v := !![R 2 2, 0, -R 0 2; 0, R 2 2, -R 1 2; 0, 0, 1] *ᵥ (R *ᵥ ![x, y, 1])
  (v 0 / v 2, v 1 / v 2)

/-- OpenCV's general distortion model (documentation of the module calib3d) with coefficients `k1, k2, p1, p2, k3, k4, k5, k6,
s1, s2, s3, s4, tx, ty` for camera coordinates `x, y` at unit depth.  `cv2.projectPoints` and `cv2.undistortPoints`, used in
orthority/camera.py:1257-1266, are trusted to follow it. -/
def cvDistort (d : List ℝ) (x y : ℝ) : ℝ × ℝ :=
  let r2 := x ^ 2 + y ^ 2
  let radial := (1 + coef d 0 * r2 + coef d 1 * r2 ^ 2 + coef d 4 * r2 ^ 3) /
    (1 + coef d 5 * r2 + coef d 6 * r2 ^ 2 + coef d 7 * r2 ^ 3)
  let xd := x * radial + 2 * coef d 2 * x * y + coef d 3 * (r2 + 2 * x ^ 2) + coef d 8 * r2 + coef d 9 * r2 ^ 2
  let yd := y * radial + coef d 2 * (r2 + 2 * y ^ 2) + 2 * coef d 3 * x * y + coef d 10 * r2 + coef d 11 * r2 ^ 2
  cvTilt (coef d 12) (coef d 13) xd yd

/-- `cv2.projectPoints` without rotation and translation, orthority/camera.py:1257-1260. -/
def cvCamToPix (K : M3) (d : List ℝ) (x : V3) : ℝ × ℝ :=
  let p := cvDistort d (x 0 / x 2) (x 1 / x 2)
  dotK K ![p.1, p.2, 1]

open Classical in
/-- orthority/camera.py:1223-1230: the choice of the number of coefficients. -/
def truncDist (d : List ℝ) : List ℝ :=
  match [4, 5, 8, 12, 14].find? fun n => decide (∀ c ∈ d.drop n, c = 0) with
  | some n => d.take n
  | none => d

/-- orthority/camera.py:1225-1229: the coefficients of `OpenCVCamera` in OpenCV order. -/
def cvOrder (k1 k2 k3 p1 p2 k4 k5 k6 s1 s2 s3 s4 tx ty : ℝ) : List ℝ :=
  [k1, k2, p1, p2, k3, k4, k5, k6, s1, s2, s3, s4, tx, ty]

open Classical in
/-- orthority/camera.py:1468-1477 `FisheyeCamera._camera_to_pixel`: the distorted angle. -/
def fisheyeTheta (k1 k2 k3 k4 r : ℝ) : ℝ :=
  let theta := arctan r
  let theta2 := theta * theta
  if k3 = k4 ∧ k4 = 0 then theta * (1 + theta2 * (k1 + theta2 * k2))
  else theta * (1 + theta2 * (k1 + theta2 * (k2 + theta2 * (k3 + theta2 * k4))))

/-- Distance of camera coordinates at unit depth from the axis, orthority/camera.py:1469. -/
def axisDist (x y : ℝ) : ℝ := sqrt (x ^ 2 + y ^ 2)

open Classical in
/-- orthority/camera.py:1478 `xyz_[:2] *= theta_d / r`: distorted camera coordinates, with NaN for division by zero. -/
def fisheyeDistort (k1 k2 k3 k4 x y : ℝ) : Fl ℝ × Fl ℝ :=
  let r := axisDist x y
  let f : Fl ℝ := .val (fisheyeTheta k1 k2 k3 k4 r) / .val r
  (.val x * f, .val y * f)

/-- `K.dot(xyz_)[:2]` for camera coordinates at unit depth that may be NaN, orthority/camera.py:1481. -/
def dotKFl (K : M3) (p : Fl ℝ × Fl ℝ) : Fl ℝ × Fl ℝ :=
  (.val (K 0 0) * p.1 + .val (K 0 1) * p.2 + .val (K 0 2), .val (K 1 0) * p.1 + .val (K 1 1) * p.2 + .val (K 1 2))

/-! ## C45 -/

theorem cvTilt_zero (x y : ℝ) : cvTilt 0 0 x y = (x, y) := by
  simp [cvTilt, Matrix.mul_apply, Matrix.mulVec, dotProduct, Fin.sum_univ_three]

/-- C45: the Brown camera projects as OpenCV's model with five coefficients. -/
theorem C45_brown (K : M3) (k1 k2 p1 p2 k3 : ℝ) (x : V3) (hx : x 2 = 1) :
    dotK K (brownDistort k1 k2 p1 p2 k3 x) = cvCamToPix K [k1, k2, p1, p2, k3] x := by
  simp only [cvCamToPix, cvDistort, coef]
  simp only [List.getD_cons_zero, List.getD_cons_succ, List.getD_nil, cvTilt_zero, hx, div_one]
  have : brownDistort k1 k2 p1 p2 k3 x = ![
      x 0 * ((1 + k1 * (x 0 ^ 2 + x 1 ^ 2) + k2 * (x 0 ^ 2 + x 1 ^ 2) ^ 2 + k3 * (x 0 ^ 2 + x 1 ^ 2) ^ 3) /
        (1 + 0 * (x 0 ^ 2 + x 1 ^ 2) + 0 * (x 0 ^ 2 + x 1 ^ 2) ^ 2 + 0 * (x 0 ^ 2 + x 1 ^ 2) ^ 3)) + 2 * p1 * x 0 * x 1 +
        p2 * (x 0 ^ 2 + x 1 ^ 2 + 2 * x 0 ^ 2) + 0 * (x 0 ^ 2 + x 1 ^ 2) + 0 * (x 0 ^ 2 + x 1 ^ 2) ^ 2,
      x 1 * ((1 + k1 * (x 0 ^ 2 + x 1 ^ 2) + k2 * (x 0 ^ 2 + x 1 ^ 2) ^ 2 + k3 * (x 0 ^ 2 + x 1 ^ 2) ^ 3) /
        (1 + 0 * (x 0 ^ 2 + x 1 ^ 2) + 0 * (x 0 ^ 2 + x 1 ^ 2) ^ 2 + 0 * (x 0 ^ 2 + x 1 ^ 2) ^ 3)) +
        p1 * (x 0 ^ 2 + x 1 ^ 2 + 2 * x 1 ^ 2) + 2 * p2 * x 0 * x 1 + 0 * (x 0 ^ 2 + x 1 ^ 2) + 0 * (x 0 ^ 2 + x 1 ^ 2) ^ 2, 1] := by
    funext i
    fin_cases i <;> simp [brownDistort, hx] <;> ring
  rw [this]

/-- C45: without distortion the Brown camera is the pinhole camera. -/
theorem C45_brown_zero (K : M3) (x : V3) : dotK K (brownDistort 0 0 0 0 0 x) = dotK K x := by
  congr 1
  funext i
  fin_cases i <;> simp [brownDistort]

theorem coef_take (d : List ℝ) (n : ℕ) (h : ∀ c ∈ d.drop n, c = 0) (i : ℕ) : coef (d.take n) i = coef d i := by
  unfold coef
  rw [List.getD_eq_getElem?_getD, List.getD_eq_getElem?_getD, List.getElem?_take]
  split
  · rfl
  · rename_i hi
    rcases Nat.lt_or_ge i d.length with hl | hl
    · have : d[i] ∈ d.drop n := by
        rw [List.mem_drop_iff_getElem]
        exact ⟨i - n, by omega, by congr 1; omega⟩
      rw [List.getElem?_eq_getElem hl]
      simp [h _ this]
    · simp [hl]

/-- C45: the choice of the number of coefficients does not change the model. -/
theorem C45_trunc (K : M3) (d : List ℝ) (x : V3) : cvCamToPix K (truncDist d) x = cvCamToPix K d x := by
  have h : ∀ i, coef (truncDist d) i = coef d i := by
    intro i
    unfold truncDist
    split
    · rename_i n hn
      have h0 := List.find?_some hn
      exact coef_take d n (of_decide_eq_true h0) i
    · rfl
  simp only [cvCamToPix, cvDistort, h]

/-- C45: the number of coefficients chosen is one that OpenCV accepts. -/
theorem C45_trunc_length (d : List ℝ) (hd : d.length = 14) : (truncDist d).length ∈ [4, 5, 8, 12, 14] := by
  unfold truncDist
  split
  · rename_i n hn
    have := List.mem_of_find?_eq_some hn
    rw [List.length_take, hd]
    simp only [List.mem_cons, List.not_mem_nil, or_false] at this ⊢
    omega
  · simp [hd]

/-- C45: an OpenCV camera with only the first five coefficients is the Brown camera. -/
theorem C45_opencv_brown (K : M3) (k1 k2 p1 p2 k3 : ℝ) (x : V3) (hx : x 2 = 1) :
    cvCamToPix K (truncDist (cvOrder k1 k2 k3 p1 p2 0 0 0 0 0 0 0 0 0)) x = dotK K (brownDistort k1 k2 p1 p2 k3 x) := by
  rw [C45_trunc, C45_brown K k1 k2 p1 p2 k3 x hx]
  have h : ∀ i, coef (cvOrder k1 k2 k3 p1 p2 0 0 0 0 0 0 0 0 0) i = coef [k1, k2, p1, p2, k3] i := by
    intro i
    have := coef_take (cvOrder k1 k2 k3 p1 p2 0 0 0 0 0 0 0 0 0) 5 (by simp [cvOrder]) i
    rw [← this]
    rfl
  simp only [cvCamToPix, cvDistort, h]

/-- C45: the OpenCV camera projects with the radial, tangential and thin prism terms of OpenCV's documentation, each with the
coefficients of its name, when the sensor is not tilted. -/
theorem C45_opencv_terms (K : M3) (k1 k2 k3 p1 p2 k4 k5 k6 s1 s2 s3 s4 x y r2 : ℝ) (hr : r2 = x ^ 2 + y ^ 2) :
    cvCamToPix K (truncDist (cvOrder k1 k2 k3 p1 p2 k4 k5 k6 s1 s2 s3 s4 0 0)) ![x, y, 1] =
      dotK K ![x * ((1 + k1 * r2 + k2 * r2 ^ 2 + k3 * r2 ^ 3) / (1 + k4 * r2 + k5 * r2 ^ 2 + k6 * r2 ^ 3)) +
          (2 * p1 * x * y + p2 * (r2 + 2 * x ^ 2)) + (s1 * r2 + s2 * r2 ^ 2),
        y * ((1 + k1 * r2 + k2 * r2 ^ 2 + k3 * r2 ^ 3) / (1 + k4 * r2 + k5 * r2 ^ 2 + k6 * r2 ^ 3)) +
          (p1 * (r2 + 2 * y ^ 2) + 2 * p2 * x * y) + (s3 * r2 + s4 * r2 ^ 2), 1] := by
  rw [C45_trunc]
  subst hr
  simp only [cvCamToPix, cvDistort, cvOrder, coef, List.getD_cons_zero, List.getD_cons_succ, cvTilt_zero,
    Matrix.cons_val_zero, Matrix.cons_val_one, Matrix.cons_val, div_one]
  congr 1
  funext i
  fin_cases i <;> simp <;> ring

/-- C45: the last two coefficients tilt the sensor, after the other distortion. -/
theorem C45_opencv_tilt (K : M3) (k1 k2 k3 p1 p2 k4 k5 k6 s1 s2 s3 s4 tx ty : ℝ) (x : V3) :
    ∃ q : ℝ × ℝ, cvCamToPix K (truncDist (cvOrder k1 k2 k3 p1 p2 k4 k5 k6 s1 s2 s3 s4 0 0)) x = dotK K ![q.1, q.2, 1] ∧
      cvCamToPix K (truncDist (cvOrder k1 k2 k3 p1 p2 k4 k5 k6 s1 s2 s3 s4 tx ty)) x =
        dotK K ![(cvTilt tx ty q.1 q.2).1, (cvTilt tx ty q.1 q.2).2, 1] := by
  rw [C45_trunc, C45_trunc]
  exact ⟨cvDistort (cvOrder k1 k2 k3 p1 p2 k4 k5 k6 s1 s2 s3 s4 0 0) (x 0 / x 2) (x 1 / x 2), rfl, by
    simp only [cvCamToPix, cvDistort, cvOrder, coef, List.getD_cons_zero, List.getD_cons_succ, cvTilt_zero]⟩

/-- C45: an OpenCV camera without coefficients is the pinhole camera. -/
theorem C45_opencv_zero (K : M3) (x : V3) (hx : x 2 = 1) :
    cvCamToPix K (truncDist (cvOrder 0 0 0 0 0 0 0 0 0 0 0 0 0 0)) x = dotK K x := by
  rw [C45_opencv_brown K 0 0 0 0 0 x hx, C45_brown_zero]

/-- C45: the fisheye camera with two coefficients is the one with four of which the last two are zero. -/
theorem C45_fisheye (k1 k2 k3 k4 r : ℝ) :
    fisheyeTheta k1 k2 k3 k4 r =
      arctan r * (1 + k1 * arctan r ^ 2 + k2 * arctan r ^ 4 + k3 * arctan r ^ 6 + k4 * arctan r ^ 8) := by
  unfold fisheyeTheta
  simp only
  split
  · rename_i h
    rw [h.1, h.2]
    ring
  · ring

/-! ## C46 -/

/-- C46: points on the optical axis have NaN coordinates, and not the principal point, whatever the parameters. -/
theorem C46_axis_fails (K : M3) (k1 k2 k3 k4 : ℝ) : dotKFl K (fisheyeDistort k1 k2 k3 k4 0 0) = (.nan, .nan) := by
  simp [dotKFl, fisheyeDistort, axisDist, Fl.val_div]

/-- C46, the part that holds: points off the axis are moved along their direction from the axis to the distorted angle of
OpenCV's and OpenSfM's fisheye model.  Missing: points on the axis (`C46_axis_fails`). -/
theorem C46_off_axis_partial (k1 k2 k3 k4 x y : ℝ) (h : x ≠ 0 ∨ y ≠ 0) :
    ∃ xd yd, fisheyeDistort k1 k2 k3 k4 x y = (.val xd, .val yd) ∧
      xd * axisDist x y = x * fisheyeTheta k1 k2 k3 k4 (axisDist x y) ∧
      yd * axisDist x y = y * fisheyeTheta k1 k2 k3 k4 (axisDist x y) ∧
      xd ^ 2 + yd ^ 2 = fisheyeTheta k1 k2 k3 k4 (axisDist x y) ^ 2 := by
  have hpos : 0 < x ^ 2 + y ^ 2 := by
    rcases h with h | h <;> positivity
  have hr : axisDist x y ≠ 0 := (sqrt_pos.2 hpos).ne'
  have hr2 : axisDist x y ^ 2 = x ^ 2 + y ^ 2 := sq_sqrt hpos.le
  refine ⟨x * (fisheyeTheta k1 k2 k3 k4 (axisDist x y) / axisDist x y),
    y * (fisheyeTheta k1 k2 k3 k4 (axisDist x y) / axisDist x y), ?_, ?_, ?_, ?_⟩
  · simp [fisheyeDistort, Fl.val_div, hr]
  · field_simp
  · field_simp
  · rw [mul_pow, mul_pow, ← add_mul, ← hr2]
    field_simp

/-- C46: without coefficients, points near the axis are projected near the principal point: the distorted coordinates are no
farther from the axis than the undistorted ones. -/
theorem C46_near_axis (x y xd yd : ℝ) (h : fisheyeDistort 0 0 0 0 x y = (.val xd, .val yd)) :
    xd ^ 2 + yd ^ 2 ≤ x ^ 2 + y ^ 2 := by
  by_cases h0 : x ≠ 0 ∨ y ≠ 0
  · obtain ⟨xd', yd', h1, -, -, h2⟩ := C46_off_axis_partial 0 0 0 0 x y h0
    rw [h1] at h
    injection h with ha hb
    injection ha with ha
    injection hb with hb
    subst ha hb
    rw [h2, C45_fisheye]
    have hr2 : axisDist x y ^ 2 = x ^ 2 + y ^ 2 := sq_sqrt (by positivity)
    have hr : 0 ≤ axisDist x y := sqrt_nonneg _
    rw [← hr2]
    have h3 : 0 ≤ arctan (axisDist x y) := arctan_nonneg.2 hr
    have h4 : arctan (axisDist x y) ≤ axisDist x y := by
      rcases eq_or_lt_of_le hr with h0 | h0
      · rw [← h0]; simp
      · have := lt_tan (arctan_pos.2 h0) (arctan_lt_pi_div_two _)
        rw [tan_arctan] at this
        exact this.le
    simp only [zero_mul, add_zero, mul_one]
    exact pow_le_pow_left₀ h3 h4 2
  · push Not at h0
    obtain ⟨rfl, rfl⟩ := h0
    simp [fisheyeDistort, axisDist, Fl.val_div] at h

end

end Verif.Frame
