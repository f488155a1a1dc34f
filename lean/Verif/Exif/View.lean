import Verif.Exif.Orient
import Verif.Frame.Gimbal

/-!
# Where cameras with XMP angles look (C71)
-/

set_option autoImplicit false

namespace Verif.Exif

open Real Matrix Verif.Frame

/-- orthority/param_io.py:198-199: `np.radians` and `_rpy_to_opk`, in a world where `d` is the difference of positions just north and
south of the camera (see `navToWorld`). -/
noncomputable def gridFuns (d : V3) (transform : ℝ → ℝ → EV ℝ → Res (ℝ × ℝ × EV ℝ)) : ExtFuns ℝ where
  transform := transform
  rpyToOpk rpy _ := .ok (rpyToOpk (rpy.1 * (π / 180)) (rpy.2.1 * (π / 180)) (rpy.2.2 * (π / 180)) d camToBody)

/-- Specification: the direction (as a vector of unit length) with this azimuth, clockwise from the unit vector (`nx`, `ny`) to the
north, and this elevation above the horizon, in degrees. -/
noncomputable def direction (nx ny az el : ℝ) : V3 :=
  ![cos (el * (π / 180)) * (cos (az * (π / 180)) * nx + sin (az * (π / 180)) * ny),
    cos (el * (π / 180)) * (cos (az * (π / 180)) * ny - sin (az * (π / 180)) * nx), sin (el * (π / 180))]

/-- Specification: the direction that a camera with these angles looks in: that of the middle of the image.  The camera transforms
camera coordinates (x right, y down, z forward) to world ones with `extrinsicR`. -/
noncomputable def viewOf (opk : ℝ × ℝ × ℝ) : V3 := extrinsicR opk *ᵥ ![0, 0, 1]

/-- Specification: the direction from the middle of its image to the top. -/
noncomputable def topOf (opk : ℝ × ℝ × ℝ) : V3 := extrinsicR opk *ᵥ ![0, -1, 0]

theorem opk_of_ext {ps : Parse ℝ} {lower str : List Char → String} {f : ImFile} {e : ExifObj ℝ}
    (h : exifInit ps lower str f = .ok e) {roll pitch yaw : ℝ} (ha : Angles ps f.xmpDict gimbalNames roll pitch yaw)
    {d : V3} {t : ℝ → ℝ → EV ℝ → Res (ℝ × ℝ × EV ℝ)} {x : ExtParam ℝ} (hx : extParam (gridFuns d t) e = .ok x) :
    x.opk = rpyToOpk (roll * (π / 180)) ((pitch + 90) * (π / 180)) (yaw * (π / 180)) d camToBody := by
  have hr := C71_gimbal ps lower str f e h _ _ _ ha
  unfold extParam at hx
  cases hl : e.lla with
  | none => rw [hl] at hx; cases hx
  | some lla =>
    rw [hl] at hx
    simp only [hr, gridFuns, Res.ok_bind] at hx
    cases ht : t lla.2.1 lla.1 lla.2.2 with
    | error e => rw [ht] at hx; cases hx
    | ok y => rw [ht] at hx; cases hx; rfl

/-- The z axis of a rotation comes back from its OPK angles, also for phi of 90 and -90 degrees. -/
theorem recover_z {R : M3} (hR : IsRot R) (i : Fin 3) : opkToRotation (rotationToOpk R) i 2 = R i 2 := by
  by_cases hg : R 0 2 ^ 2 = 1
  · rw [recover_gimbal hR hg]
    obtain ⟨-, e2, -⟩ := hR.entries
    have a3 : R 1 2 = 0 := by nlinarith [sq_nonneg (R 1 2), sq_nonneg (R 2 2)]
    have a4 : R 2 2 = 0 := by nlinarith [sq_nonneg (R 1 2), sq_nonneg (R 2 2)]
    fin_cases i <;> simp [a3, a4]
  · rw [C34_opk_recover_partial R hR hg]

theorem unit_north {d : V3} (hz : d 2 = 0) (hd : norm3 d ≠ 0) : (d 0 / norm3 d) ^ 2 + (d 1 / norm3 d) ^ 2 = 1 := by
  have hn := norm3_sq d
  rw [hz] at hn
  rw [div_pow, div_pow, ← add_div, show d 0 ^ 2 + d 1 ^ 2 = norm3 d ^ 2 by rw [hn]; ring]
  exact div_self (pow_ne_zero 2 hd)

theorem sin_offset (p : ℝ) : sin ((p + 90) * (π / 180)) = cos (p * (π / 180)) := by
  rw [show (p + 90) * (π / 180) = p * (π / 180) + π / 2 by ring, sin_add_pi_div_two]

theorem cos_offset (p : ℝ) : cos ((p + 90) * (π / 180)) = -sin (p * (π / 180)) := by
  rw [show (p + 90) * (π / 180) = p * (π / 180) + π / 2 by ring, cos_add_pi_div_two]

theorem view_eq (opk : ℝ × ℝ × ℝ) : viewOf opk = ![-opkToRotation opk 0 2, -opkToRotation opk 1 2, -opkToRotation opk 2 2] := by
  ext i
  fin_cases i <;> simp [viewOf, extrinsicR, flipYZ, Matrix.mulVec, dotProduct, Matrix.mul_apply, Fin.sum_univ_three]

theorem top_eq (opk : ℝ × ℝ × ℝ) : topOf opk = ![opkToRotation opk 0 1, opkToRotation opk 1 1, opkToRotation opk 2 1] := by
  ext i
  fin_cases i <;> simp [topOf, extrinsicR, flipYZ, Matrix.mulVec, dotProduct, Matrix.mul_apply, Fin.sum_univ_three]

theorem view_rpy (roll pitch yaw : ℝ) (d : V3) (hz : d 2 = 0) (hd : norm3 d ≠ 0) :
    viewOf (rpyToOpk (roll * (π / 180)) ((pitch + 90) * (π / 180)) (yaw * (π / 180)) d camToBody) =
      cos (roll * (π / 180)) • direction (d 0 / norm3 d) (d 1 / norm3 d) yaw pitch +
        sin (roll * (π / 180)) • direction (d 0 / norm3 d) (d 1 / norm3 d) (yaw - 90) 0 := by
  have hR := C36_rotation (roll * (π / 180)) ((pitch + 90) * (π / 180)) (yaw * (π / 180)) d hz hd camToBody isRot_camToBody
  rw [view_eq, rpyToOpk, recover_z hR, recover_z hR, recover_z hR]
  have s1 : sin ((yaw - 90) * (π / 180)) = -cos (yaw * (π / 180)) := by
    rw [show (yaw - 90) * (π / 180) = yaw * (π / 180) - π / 2 by ring, sin_sub_pi_div_two]
  have c1 : cos ((yaw - 90) * (π / 180)) = sin (yaw * (π / 180)) := by
    rw [show (yaw - 90) * (π / 180) = yaw * (π / 180) - π / 2 by ring, cos_sub_pi_div_two]
  ext i
  fin_cases i <;>
    simp [direction, camToWorld, navToWorld, cross, hz, rpyToRotation, rotX, rotY, rotZ, camToBody, Matrix.mul_apply,
      Fin.sum_univ_three, sin_offset, cos_offset, s1, c1] <;> ring

/-- C71: a gimbal without roll looks to the azimuth of its yaw, clockwise from the north, and at the elevation of its pitch, whatever the
yaw and pitch, and wherever the north is on the map. -/
theorem C71_view (ps : Parse ℝ) (lower str : List Char → String) (f : ImFile) (e : ExifObj ℝ)
    (h : exifInit ps lower str f = .ok e) (pitch yaw : ℝ) (ha : Angles ps f.xmpDict gimbalNames 0 pitch yaw)
    (d : V3) (hz : d 2 = 0) (hd : norm3 d ≠ 0) (t : ℝ → ℝ → EV ℝ → Res (ℝ × ℝ × EV ℝ)) (x : ExtParam ℝ)
    (hx : extParam (gridFuns d t) e = .ok x) :
    viewOf x.opk = direction (d 0 / norm3 d) (d 1 / norm3 d) yaw pitch := by
  rw [opk_of_ext h ha hx, view_rpy _ _ _ d hz hd]
  simp

/-- C71, the part that holds: the top of the image is 90 degrees above the direction that it looks in, so that seen from above, the image
of a camera that looks down is turned clockwise by the yaw.  Missing: cameras that look along the x axis of the world, whose angles do not
give the orientation back (C34). -/
theorem C71_top_partial (ps : Parse ℝ) (lower str : List Char → String) (f : ImFile) (e : ExifObj ℝ)
    (h : exifInit ps lower str f = .ok e) (pitch yaw : ℝ) (ha : Angles ps f.xmpDict gimbalNames 0 pitch yaw)
    (d : V3) (hz : d 2 = 0) (hd : norm3 d ≠ 0) (t : ℝ → ℝ → EV ℝ → Res (ℝ × ℝ × EV ℝ)) (x : ExtParam ℝ)
    (hx : extParam (gridFuns d t) e = .ok x) (hg : direction (d 0 / norm3 d) (d 1 / norm3 d) yaw pitch 0 ^ 2 ≠ 1) :
    topOf x.opk = direction (d 0 / norm3 d) (d 1 / norm3 d) yaw (pitch + 90) := by
  have hv := view_rpy 0 pitch yaw d hz hd
  have hR := C36_rotation (0 * (π / 180)) ((pitch + 90) * (π / 180)) (yaw * (π / 180)) d hz hd camToBody isRot_camToBody
  rw [view_eq] at hv
  have hv0 := congrFun hv 0
  simp only [zero_mul, cos_zero, sin_zero, one_smul, zero_smul, add_zero, Matrix.cons_val_zero] at hv0
  rw [rpyToOpk, ← zero_mul (π / 180), recover_z hR] at hv0
  rw [opk_of_ext h ha hx, top_eq, C36_opk_partial _ _ _ d hz hd camToBody isRot_camToBody (by rw [← neg_sq, hv0]; exact hg)]
  ext i
  fin_cases i <;>
    simp [direction, navToWorld, cross, hz, rpyToRotation, rotX, rotY, rotZ, camToBody, Matrix.mul_apply,
      Fin.sum_univ_three, sin_offset, cos_offset] <;> ring

/-- C71 fails for gimbals with roll: the roll of a gimbal turns the image about the direction it looks in, and so leaves that direction as
it is.  The roll turns the camera away from that direction instead, to the left of the image: the angle between the two is the roll. -/
theorem C71_roll_fails (ps : Parse ℝ) (lower str : List Char → String) (f : ImFile) (e : ExifObj ℝ)
    (h : exifInit ps lower str f = .ok e) (roll pitch yaw : ℝ) (ha : Angles ps f.xmpDict gimbalNames roll pitch yaw)
    (d : V3) (hz : d 2 = 0) (hd : norm3 d ≠ 0) (t : ℝ → ℝ → EV ℝ → Res (ℝ × ℝ × EV ℝ)) (x : ExtParam ℝ)
    (hx : extParam (gridFuns d t) e = .ok x) :
    viewOf x.opk ⬝ᵥ direction (d 0 / norm3 d) (d 1 / norm3 d) yaw pitch = cos (roll * (π / 180)) ∧
      viewOf x.opk ⬝ᵥ direction (d 0 / norm3 d) (d 1 / norm3 d) (yaw - 90) 0 = sin (roll * (π / 180)) ∧
      (cos (roll * (π / 180)) ≠ 1 → viewOf x.opk ≠ direction (d 0 / norm3 d) (d 1 / norm3 d) yaw pitch) := by
  rw [opk_of_ext h ha hx, view_rpy _ _ _ d hz hd]
  have hu := unit_north hz hd
  generalize d 0 / norm3 d = a at *
  generalize d 1 / norm3 d = b at *
  have s1 : sin ((yaw - 90) * (π / 180)) = -cos (yaw * (π / 180)) := by
    rw [show (yaw - 90) * (π / 180) = yaw * (π / 180) - π / 2 by ring, sin_sub_pi_div_two]
  have c1 : cos ((yaw - 90) * (π / 180)) = sin (yaw * (π / 180)) := by
    rw [show (yaw - 90) * (π / 180) = yaw * (π / 180) - π / 2 by ring, cos_sub_pi_div_two]
  have y1 := sin_sq_add_cos_sq (yaw * (π / 180))
  have p1 := sin_sq_add_cos_sq (pitch * (π / 180))
  have hdd : direction a b yaw pitch ⬝ᵥ direction a b yaw pitch = 1 := by
    simp only [direction, dotProduct, Fin.sum_univ_three, Matrix.cons_val_zero, Matrix.cons_val_one, Matrix.cons_val]
    linear_combination cos (pitch * (π / 180)) ^ 2 * (a ^ 2 + b ^ 2) * y1 + cos (pitch * (π / 180)) ^ 2 * hu + p1
  have hss : direction a b (yaw - 90) 0 ⬝ᵥ direction a b (yaw - 90) 0 = 1 := by
    simp only [direction, dotProduct, Fin.sum_univ_three, Matrix.cons_val_zero, Matrix.cons_val_one, Matrix.cons_val, s1, c1, zero_mul,
      cos_zero, sin_zero]
    linear_combination (a ^ 2 + b ^ 2) * y1 + hu
  have hds : direction a b yaw pitch ⬝ᵥ direction a b (yaw - 90) 0 = 0 := by
    simp only [direction, dotProduct, Fin.sum_univ_three, Matrix.cons_val_zero, Matrix.cons_val_one, Matrix.cons_val, s1, c1, zero_mul,
      cos_zero, sin_zero]
    ring
  have k1 : (cos (roll * (π / 180)) • direction a b yaw pitch + sin (roll * (π / 180)) • direction a b (yaw - 90) 0) ⬝ᵥ
      direction a b yaw pitch = cos (roll * (π / 180)) := by
    rw [add_dotProduct, smul_dotProduct, smul_dotProduct, hdd, dotProduct_comm (direction a b (yaw - 90) 0), hds]
    simp
  refine ⟨k1, ?_, fun hc he => ?_⟩
  · rw [add_dotProduct, smul_dotProduct, smul_dotProduct, hss, hds]
    simp
  · rw [he, hdd] at k1
    exact hc k1.symm

/-- C71 fails for the gimbal angles that DJI drones give with a camera that looks straight down and is turned over: pitch -90° and roll
180°.  The camera looks straight up. -/
theorem C71_over_fails (ps : Parse ℝ) (lower str : List Char → String) (f : ImFile) (e : ExifObj ℝ)
    (h : exifInit ps lower str f = .ok e) (yaw : ℝ) (ha : Angles ps f.xmpDict gimbalNames 180 (-90) yaw)
    (d : V3) (hz : d 2 = 0) (hd : norm3 d ≠ 0) (t : ℝ → ℝ → EV ℝ → Res (ℝ × ℝ × EV ℝ)) (x : ExtParam ℝ)
    (hx : extParam (gridFuns d t) e = .ok x) : viewOf x.opk = ![0, 0, 1] := by
  rw [opk_of_ext h ha hx, view_rpy _ _ _ d hz hd, show (180 : ℝ) * (π / 180) = π by ring, cos_pi, sin_pi]
  have c : cos (90 * (π / 180)) = 0 := by rw [show 90 * (π / 180) = π / 2 by ring, cos_pi_div_two]
  have s : sin (90 * (π / 180)) = 1 := by rw [show 90 * (π / 180) = π / 2 by ring, sin_pi_div_two]
  ext i
  fin_cases i <;> simp [direction, c, s]

/-! ## Examples -/

/-- A camera that looks straight down, with its top to the east (yaw 90°), in a world with the y axis to the north. -/
example : direction 0 1 90 (-90) = ![0, 0, -1] ∧ direction 0 1 90 0 = ![1, 0, 0] := by
  have c : cos (90 * (π / 180)) = 0 := by rw [show 90 * (π / 180) = π / 2 by ring, cos_pi_div_two]
  have s : sin (90 * (π / 180)) = 1 := by rw [show 90 * (π / 180) = π / 2 by ring, sin_pi_div_two]
  constructor
  · ext i
    fin_cases i <;> simp [direction, c, s]
  · ext i
    fin_cases i <;> simp [direction, c, s]

/-- Parsers of some numbers. -/
def viewParse : Parse ℝ where
  flt s := match s with
    | ['d'] => some (-90)
    | ['o'] => some 180
    | ['0'] => some 0
    | ['y'] => some 30
    | _ => none
  int10 _ := none
  int0 _ := none

/-- An image with a position, this gimbal roll, and pitch -90° and yaw 30°. -/
def viewFile (roll : Char) : ImFile :=
  { filename := "a.jpg", imSize := (40, 30), tags := [], exifTags := [],
    xmp := some (.node "xmpmeta" none [] [.node "Description" none
      [("{http://www.dji.com/drone-dji/1.0/}GpsLatitude", ['0']), ("{http://www.dji.com/drone-dji/1.0/}GpsLongtitude", ['y']),
       ("{http://www.dji.com/drone-dji/1.0/}AbsoluteAltitude", ['o']),
       ("{http://www.dji.com/drone-dji/1.0/}GimbalRollDegree", [roll]),
       ("{http://www.dji.com/drone-dji/1.0/}GimbalPitchDegree", ['d']),
       ("{http://www.dji.com/drone-dji/1.0/}GimbalYawDegree", ['y'])] []]) }

theorem view_angles : Angles viewParse (viewFile '0').xmpDict gimbalNames 0 (-90) 30 :=
  ⟨_, _, _, _, _, _, rfl, rfl, rfl, rfl, rfl, rfl, rfl⟩

theorem over_angles : Angles viewParse (viewFile 'o').xmpDict gimbalNames 180 (-90) 30 :=
  ⟨_, _, _, _, _, _, rfl, rfl, rfl, rfl, rfl, rfl, rfl⟩

theorem view_read (roll : Char) (h : roll = '0' ∨ roll = 'o') (d : V3) :
    ∃ e x, exifInit viewParse String.ofList String.ofList (viewFile roll) = .ok e ∧
      extParam (gridFuns d fun x y z => .ok (x, y, z)) e = .ok x := by
  rcases h with rfl | rfl
  · exact ⟨_, _, rfl, rfl⟩
  · exact ⟨_, _, rfl, rfl⟩

theorem north_len : norm3 ![0, 1, 0] = 1 := by simp [norm3]

/-- The theorems apply to these images: without roll the camera looks straight down, with its top to the azimuth of 30°. -/
example : ∃ x : ExtParam ℝ, viewOf x.opk = direction 0 1 30 (-90) ∧ topOf x.opk = direction 0 1 30 0 := by
  obtain ⟨e, x, he, hx⟩ := view_read '0' (.inl rfl) ![0, 1, 0]
  have c : cos (90 * (π / 180)) = 0 := by rw [show 90 * (π / 180) = π / 2 by ring, cos_pi_div_two]
  have h1 := C71_view _ _ _ _ e he _ _ view_angles ![0, 1, 0] rfl (by rw [north_len]; exact one_ne_zero) _ x hx
  have h2 := C71_top_partial _ _ _ _ e he _ _ view_angles ![0, 1, 0] rfl (by rw [north_len]; exact one_ne_zero) _ x hx
    (by simp [direction, c])
  simp only [north_len, Matrix.cons_val_zero, Matrix.cons_val_one, div_one] at h1 h2
  exact ⟨x, h1, by rw [h2]; norm_num⟩

/-- Turned over it looks straight up. -/
example : ∃ x : ExtParam ℝ, viewOf x.opk = ![0, 0, 1] := by
  obtain ⟨e, x, he, hx⟩ := view_read 'o' (.inr rfl) ![0, 1, 0]
  exact ⟨x, C71_over_fails _ _ _ _ e he _ over_angles ![0, 1, 0] rfl (by rw [north_len]; exact one_ne_zero) _ x hx⟩

end Verif.Exif
