import Verif.Exif.Props
import Verif.Frame.Pinhole

/-!
# Interior parameters from EXIF and XMP tags (C57, C65)
-/

set_option autoImplicit false
set_option linter.unusedSectionVars false

namespace Verif.Exif

open _root_.Verif.Frame

section
variable {K : Type} [Field K] [LinearOrder K] [IsStrictOrderedRing K] [FloorRing K]

theorem exifInit_ok {ps : Parse K} {lower str : List Char → String} {f : ImFile} {e : ExifObj K}
    (h : exifInit ps lower str f = .ok e) :
    tagImSize ps f.exifDict = .ok e.tagImSize ∧ sensorSize ps f.exifDict f.imSize = .ok e.sensorSize ∧
    exifFloat ps f.exifDict "EXIF_FocalLengthIn35mmFilm" = .ok e.focalLen35 ∧
    exifFloat ps f.exifDict "EXIF_FocalLength" = .ok e.focalLen ∧ e.imSize = f.imSize ∧ e.filename = f.filename := by
  unfold exifInit at h
  cases h1 : tagImSize ps f.exifDict with
  | error x => simp only [h1] at h; cases h
  | ok a =>
  cases h2 : sensorSize ps f.exifDict f.imSize with
  | error x => simp only [h1, h2] at h; cases h
  | ok b =>
  cases h3 : exifFloat ps f.exifDict "EXIF_FocalLengthIn35mmFilm" with
  | error x => simp only [h1, h2, h3] at h; cases h
  | ok c =>
  cases h4 : exifFloat ps f.exifDict "EXIF_FocalLength" with
  | error x => simp only [h1, h2, h3, h4] at h; cases h
  | ok c =>
  cases h5 : llaOr (xmpLla ps f.xmpDict schemas) (exifLla ps f.exifDict) with
  | error x => simp only [h1, h2, h3, h4, h5] at h; cases h
  | ok l =>
  cases h6 : xmpRpy ps f.xmpDict schemas with
  | error x => simp only [h1, h2, h3, h4, h5, h6] at h; cases h
  | ok r =>
  cases h7 : xmpDewarp ps f.xmpDict schemas with
  | error x => simp only [h1, h2, h3, h4, h5, h6, h7] at h; cases h
  | ok w =>
  simp only [h1, h2, h3, h4, h5, h6, h7, Res.ok_bind] at h
  cases h
  exact ⟨rfl, rfl, rfl, rfl, rfl, rfl⟩

/-- Specification: a tag with one number. -/
def NumTag (ps : Parse K) (d : Tags) (key : String) (x : K) : Prop :=
  ∃ v, NumText v ∧ ps.flt v = some x ∧ d.get? key = some (gdalTag [v])

theorem NumTag.float {ps : Parse K} {d : Tags} {key : String} {x : K} (h : NumTag ps d key x) :
    exifFloat ps d key = .ok (some (.one x)) ∧ ∃ s, d.get? key = some s := by
  obtain ⟨v, hv, hx, hd⟩ := h
  exact ⟨exifFloat_one ps d key v hv x hx hd, _, hd⟩

/-- C57: the sensor size is the image size in pixels times the pixel size in mm, for resolutions per inch, cm, mm and μm. -/
theorem C57_sensor_size (ps : Parse K) (d : Tags) (im : ℕ × ℕ) (u : List Char) (code : ℤ) (mm rx ry : K)
    (hu : d.get? "EXIF_FocalPlaneResolutionUnit" = some u) (hc : ps.int10 u = some code)
    (hmm : (code, mm) ∈ [((2 : ℤ), (25.4 : K)), (3, 10), (4, 1), (5, 0.001)])
    (hx : NumTag ps d "EXIF_FocalPlaneXResolution" rx) (hy : NumTag ps d "EXIF_FocalPlaneYResolution" ry)
    (_hrx : rx ≠ 0) (_hry : ry ≠ 0) :
    sensorSize ps d im = .ok (some (im.1 * (mm / rx), im.2 * (mm / ry))) := by
  obtain ⟨f1, s1, g1⟩ := hx.float
  obtain ⟨f2, s2, g2⟩ := hy.float
  have hm : (mmPerUnit code : Option K) = some mm := by
    simp only [List.mem_cons, Prod.mk.injEq, List.not_mem_nil, or_false] at hmm
    rcases hmm with ⟨rfl, rfl⟩ | ⟨rfl, rfl⟩ | ⟨rfl, rfl⟩ | ⟨rfl, rfl⟩
    · simp only [mmPerUnit, if_pos]; norm_num
    · rfl
    · rfl
    · simp only [mmPerUnit]; norm_num
  unfold sensorSize
  rw [hu, g1, g2]
  simp only [hc, orValueError, Res.ok_bind, hm, f1, f2]
  have e1 : mm * im.1 / rx = im.1 * (mm / rx) := by ring
  have e2 : mm * im.2 / ry = im.2 * (mm / ry) := by ring
  rw [e1, e2]
  rfl

theorem usableDewarp_none {e : ExifObj K} (h : e.dewarp = none) : usableDewarp e = none := by
  unfold usableDewarp; rw [h]

/-- C57: ParamError exactly when there is no usable dewarp data, no focal length with a sensor size, and no 35 mm focal
length. -/
theorem C57_error (e : ExifObj K) :
    intParam e = .error .paramError ↔
      ¬ (∃ l t, e.dewarp = some l ∧ e.tagImSize = some t ∧ l.length = 9 ∧ ∃ x ∈ l, x ≠ 0) ∧
      ¬ (truthy e.focalLen = true ∧ e.sensorSize ≠ none) ∧ truthy e.focalLen35 = false := by
  have hd : usableDewarp e = none ↔ ¬ (∃ l t, e.dewarp = some l ∧ e.tagImSize = some t ∧ l.length = 9 ∧ ∃ x ∈ l, x ≠ 0) := by
    unfold usableDewarp
    cases e.dewarp with
    | none => simp
    | some l =>
      cases e.tagImSize with
      | none => simp
      | some t =>
        simp only [Option.some.injEq, List.any_eq_true, decide_eq_true_eq]
        by_cases hc : l.length = 9 ∧ ∃ x ∈ l, x ≠ 0
        · rw [if_pos hc]; simp [hc]
        · rw [if_neg hc]; simpa using hc
  cases hw : usableDewarp e with
  | some p =>
    have : ¬ usableDewarp e = none := by rw [hw]; simp
    rw [hd] at this
    unfold intParam
    rw [hw]
    obtain ⟨l, t⟩ := p
    refine Iff.intro (fun h => ?_) (fun h => absurd h.1 this)
    cases h
  | none =>
    unfold intParam
    rw [hw]
    simp only [hd.1 hw, not_false_eq_true, true_and]
    cases hs : e.sensorSize with
    | none =>
      cases hf : e.focalLen35 with
      | none => simp [truthy]
      | some v =>
        cases v with
        | one x => by_cases hx : x = 0 <;> simp [truthy, EV.truthy, hx]
        | many l => cases l <;> simp [truthy, EV.truthy]
    | some s =>
      cases hfl : e.focalLen with
      | none =>
        cases hf : e.focalLen35 with
        | none => simp [truthy]
        | some v =>
          cases v with
          | one x => by_cases hx : x = 0 <;> simp [truthy, EV.truthy, hx]
          | many l => cases l <;> simp [truthy, EV.truthy]
      | some g =>
        by_cases hg : g.truthy = true
        · simp [truthy, hg]
        · rw [Bool.not_eq_true] at hg
          have hg : truthy (some g) = false := hg
          simp only [hg]
          cases hf : e.focalLen35 with
          | none => simp [truthy]
          | some v =>
            cases v with
            | one x => by_cases hx : x = 0 <;> simp [truthy, EV.truthy, hx]
            | many l => cases l <;> simp [truthy, EV.truthy]

end

/-! ## Field of view of the camera -/

/-- The intrinsic matrix of a camera with these parameters, orthority/camera.py:608 (principal point parameters are zero by
default, orthority/camera.py:599-600). -/
noncomputable def camK (p : IntParam ℝ) : Res M3 :=
  getIntrinsic p.imSize p.focal p.sensor (p.cxy.getD (0, 0)).1 (p.cxy.getD (0, 0)).2

/-- C57: with focal length and focal plane resolution tags, the focal length in pixels is the focal length in mm over the
pixel size in mm, on both axes and for all units, and the principal point is the centre of the image. -/
theorem C57_direct (ps : Parse ℝ) (lower str : List Char → String) (f : ImFile) (e : ExifObj ℝ)
    (h : exifInit ps lower str f = .ok e) (hdw : e.dewarp = none) (him : 0 < f.imSize.1 ∧ 0 < f.imSize.2)
    (u : List Char) (code : ℤ) (mm rx ry fl : ℝ)
    (hu : f.exifDict.get? "EXIF_FocalPlaneResolutionUnit" = some u) (hc : ps.int10 u = some code)
    (hmm : (code, mm) ∈ [((2 : ℤ), (25.4 : ℝ)), (3, 10), (4, 1), (5, 0.001)])
    (hx : NumTag ps f.exifDict "EXIF_FocalPlaneXResolution" rx) (hy : NumTag ps f.exifDict "EXIF_FocalPlaneYResolution" ry)
    (hrx : rx ≠ 0) (hry : ry ≠ 0) (hfl : NumTag ps f.exifDict "EXIF_FocalLength" fl) (hfl0 : fl ≠ 0) :
    ∃ p k, intParam e = .ok p ∧ camK p = .ok k ∧ k 0 0 = fl / (mm / rx) ∧ k 1 1 = fl / (mm / ry) ∧
      k 0 2 = (e.imSize.1 - 1) / 2 ∧ k 1 2 = (e.imSize.2 - 1) / 2 := by
  obtain ⟨-, hs, -, hf, him2, -⟩ := exifInit_ok h
  rw [C57_sensor_size ps _ _ u code mm rx ry hu hc hmm hx hy hrx hry] at hs
  rw [hfl.float.1] at hf
  have hs := (Except.ok.inj hs).symm
  have hf := (Except.ok.inj hf).symm
  have hm0 : mm ≠ 0 := by
    simp only [List.mem_cons, Prod.mk.injEq, List.not_mem_nil, or_false] at hmm
    rcases hmm with ⟨-, rfl⟩ | ⟨-, rfl⟩ | ⟨-, rfl⟩ | ⟨-, rfl⟩ <;> norm_num
  have h1 : (f.imSize.1 : ℝ) ≠ 0 := by exact_mod_cast him.1.ne'
  have h2 : (f.imSize.2 : ℝ) ≠ 0 := by exact_mod_cast him.2.ne'
  have ht : truthy e.focalLen = true := by rw [hf]; simp [truthy, EV.truthy, hfl0]
  unfold intParam
  rw [usableDewarp_none hdw, ht, hf, hs]
  refine ⟨_, _, rfl, rfl, ?_, ?_, ?_, ?_⟩
  · simp only [him2, kMat, sigmaXY, Matrix.of_apply, Matrix.cons_val_zero, Matrix.cons_val', Matrix.cons_val_fin_one]
    field_simp
  · simp only [him2, kMat, sigmaXY, Matrix.of_apply, Matrix.cons_val_one, Matrix.cons_val', Matrix.cons_val_fin_one,
      Matrix.cons_val_zero]
    field_simp
  · simp [kMat, centreXY]
  · simp [kMat, centreXY]

/-- C57: the focal plane resolution is taken to be the one of the image as it is, so an image resized with its tags kept
gets another field of view: the focal length in pixels does not follow the width. -/
theorem C57_resized_fails (ps : Parse ℝ) (lower str : List Char → String) (f f' : ImFile) (e e' : ExifObj ℝ)
    (h : exifInit ps lower str f = .ok e) (h' : exifInit ps lower str f' = .ok e') (hdw : e.dewarp = none)
    (hdw' : e'.dewarp = none) (htags : f'.exifDict = f.exifDict) (him : 0 < f.imSize.1 ∧ 0 < f.imSize.2)
    (him' : 0 < f'.imSize.1 ∧ 0 < f'.imSize.2) (hne : f.imSize.1 ≠ f'.imSize.1)
    (u : List Char) (rx ry fl : ℝ)
    (hu : f.exifDict.get? "EXIF_FocalPlaneResolutionUnit" = some u) (hc : ps.int10 u = some 3)
    (hx : NumTag ps f.exifDict "EXIF_FocalPlaneXResolution" rx) (hy : NumTag ps f.exifDict "EXIF_FocalPlaneYResolution" ry)
    (hrx : rx ≠ 0) (hry : ry ≠ 0) (hfl : NumTag ps f.exifDict "EXIF_FocalLength" fl) (hfl0 : fl ≠ 0) :
    ∃ p k p' k', intParam e = .ok p ∧ camK p = .ok k ∧ intParam e' = .ok p' ∧ camK p' = .ok k' ∧
      k 0 0 / f.imSize.1 ≠ k' 0 0 / f'.imSize.1 := by
  obtain ⟨p, k, hp, hk, h0, -⟩ := C57_direct ps lower str f e h hdw him u 3 10 rx ry fl hu hc (by simp) hx hy hrx hry hfl hfl0
  obtain ⟨p', k', hp', hk', h0', -⟩ := C57_direct ps lower str f' e' h' hdw' him' u 3 10 rx ry fl (htags ▸ hu) hc (by simp)
    (htags ▸ hx) (htags ▸ hy) hrx hry (htags ▸ hfl) hfl0
  refine ⟨p, k, p', k', hp, hk, hp', hk', ?_⟩
  have h1 : (f.imSize.1 : ℝ) ≠ 0 := by exact_mod_cast him.1.ne'
  have h2 : (f'.imSize.1 : ℝ) ≠ 0 := by exact_mod_cast him'.1.ne'
  rw [h0, h0']
  intro hq
  apply hne
  have hf : fl / (10 / rx) ≠ 0 := div_ne_zero hfl0 (div_ne_zero (by norm_num) hrx)
  rw [div_eq_div_iff h1 h2] at hq
  have := mul_left_cancel₀ hf hq
  exact_mod_cast this.symm

/-- C57: without a focal length but with a 35 mm equivalent and a sensor size, the longer sensor side sees the angle that 36 mm
see at the 35 mm focal length, pixels have the shape of the sensor's, and the principal point is the centre of the image. -/
theorem C57_equivalent_sensor (e : ExifObj ℝ) (hdw : e.dewarp = none) (hfl : e.focalLen = none) (f : ℝ) (hf : f ≠ 0)
    (h35 : e.focalLen35 = some (.one f)) (s : ℝ × ℝ) (hs : e.sensorSize = some s) (h1 : 0 < s.1) (h2 : 0 < s.2) :
    ∃ p k, intParam e = .ok p ∧ camK p = .ok k ∧ (s.2 ≤ s.1 → k 0 0 = e.imSize.1 * (f / 36)) ∧
      (s.1 ≤ s.2 → k 1 1 = e.imSize.2 * (f / 36)) ∧ k 0 0 * (s.1 * e.imSize.2) = k 1 1 * (s.2 * e.imSize.1) ∧
      k 0 2 = (e.imSize.1 - 1) / 2 ∧ k 1 2 = (e.imSize.2 - 1) / 2 := by
  have ht : truthy e.focalLen35 = true := by rw [h35]; simp [truthy, EV.truthy, hf]
  unfold intParam
  rw [usableDewarp_none hdw, hfl, ht, h35, hs]
  refine ⟨_, _, rfl, rfl, ?_, ?_, ?_, ?_, ?_⟩
  · intro hle
    simp only [kMat, sigmaXY, Matrix.of_apply, Matrix.cons_val_zero, Matrix.cons_val', Matrix.cons_val_fin_one,
      max_eq_left hle]
    have := h1.ne'
    field_simp
  · intro hle
    simp only [kMat, sigmaXY, Matrix.of_apply, Matrix.cons_val_one, Matrix.cons_val', Matrix.cons_val_fin_one,
      Matrix.cons_val_zero, max_eq_right hle]
    have := h2.ne'
    field_simp
  · simp only [kMat, sigmaXY, Matrix.of_apply, Matrix.cons_val_one, Matrix.cons_val', Matrix.cons_val_fin_one,
      Matrix.cons_val_zero]
    have := h1.ne'
    have := h2.ne'
    field_simp
  · simp [kMat, centreXY]
  · simp [kMat, centreXY]

theorem intParam_35 (e : ExifObj ℝ) (hdw : e.dewarp = none) (f : ℝ) (hf : f ≠ 0)
    (h35 : e.focalLen35 = some (.one f)) (hs : e.sensorSize = none) :
    intParam e = .ok { brown := false, imSize := e.imSize, focal := [f / 36], sensor := none, cxy := none, dist := [] } := by
  have ht : truthy e.focalLen35 = true := by rw [h35]; simp [truthy, EV.truthy, hf]
  unfold intParam
  rw [usableDewarp_none hdw, ht, h35, hs]
  cases truthy e.focalLen <;> cases e.focalLen <;> rfl

/-- C57, the part that holds of the 35 mm equivalent without a sensor size: in landscape and square images the longer side
sees the angle that 36 mm see at the 35 mm focal length, and the principal point is the centre of the image.  Missing: portrait images (`C57_portrait_fails`). -/
theorem C57_equivalent_partial (e : ExifObj ℝ) (hdw : e.dewarp = none) (f : ℝ) (hf : f ≠ 0)
    (h35 : e.focalLen35 = some (.one f)) (hs : e.sensorSize = none) (hwh : e.imSize.2 ≤ e.imSize.1) :
    ∃ p k, intParam e = .ok p ∧ camK p = .ok k ∧ k 0 0 = (max e.imSize.1 e.imSize.2 : ℕ) * (f / 36) ∧ k 1 1 = k 0 0 ∧
      k 0 2 = (e.imSize.1 - 1) / 2 ∧ k 1 2 = (e.imSize.2 - 1) / 2 := by
  refine ⟨_, _, intParam_35 e hdw f hf h35 hs, rfl, ?_, ?_, ?_, ?_⟩
  · simp only [kMat, sigmaXY, Matrix.of_apply, Matrix.cons_val_zero, Matrix.cons_val', Matrix.cons_val_fin_one,
      max_eq_left hwh]
    ring
  · simp [kMat, sigmaXY]
  · simp [kMat, centreXY]
  · simp [kMat, centreXY]

/-- C57: in every portrait image without a sensor size, the longer side sees a wider angle than 36 mm see at the 35 mm
focal length. -/
theorem C57_portrait_fails (e : ExifObj ℝ) (hdw : e.dewarp = none) (f : ℝ) (hf : 0 < f)
    (h35 : e.focalLen35 = some (.one f)) (hs : e.sensorSize = none) (hwh : e.imSize.1 < e.imSize.2) :
    ∃ p k, intParam e = .ok p ∧ camK p = .ok k ∧ k 1 1 < (max e.imSize.1 e.imSize.2 : ℕ) * (f / 36) := by
  refine ⟨_, _, intParam_35 e hdw f hf.ne' h35 hs, rfl, ?_⟩
  simp only [kMat, sigmaXY, Matrix.of_apply, Matrix.cons_val_one, Matrix.cons_val', Matrix.cons_val_fin_one,
    Matrix.cons_val_zero, max_eq_right hwh.le]
  rw [mul_comm]
  have : (e.imSize.1 : ℝ) < e.imSize.2 := by exact_mod_cast hwh
  gcongr

/-- C57: with dewarp data the camera is a brown camera, whose focal lengths, principal point offsets and distortion are the
calibrated ones at the tagged image size, scaled to the size of the image. -/
theorem C57_dewarp (e : ExifObj ℝ) (fx fy cx cy k1 k2 p1 p2 k3 : ℝ) (t : ℤ × ℤ)
    (hdw : e.dewarp = some [fx, fy, cx, cy, k1, k2, p1, p2, k3]) (hnz : fx ≠ 0) (ht : e.tagImSize = some t)
    (ht1 : 0 < t.1) (ht2 : 0 < t.2) (s : ℝ) (hw : (e.imSize.1 : ℝ) = s * t.1) (hh : (e.imSize.2 : ℝ) = s * t.2) (hs : 0 < s) :
    ∃ p k, intParam e = .ok p ∧ camK p = .ok k ∧ p.brown = true ∧
      p.dist = [("k1", k1), ("k2", k2), ("p1", p1), ("p2", p2), ("k3", k3)] ∧ k 0 0 = s * fx ∧ k 1 1 = s * fy ∧
      k 0 2 = (e.imSize.1 - 1) / 2 + s * cx ∧ k 1 2 = (e.imSize.2 - 1) / 2 + s * cy := by
  have hu : usableDewarp e = some ([fx, fy, cx, cy, k1, k2, p1, p2, k3], t) := by
    unfold usableDewarp
    rw [hdw, ht]
    simp [hnz]
  have h1 : (t.1 : ℝ) ≠ 0 := by exact_mod_cast ht1.ne'
  have h2 : (t.2 : ℝ) ≠ 0 := by exact_mod_cast ht2.ne'
  have hm : ((max e.imSize.1 e.imSize.2 : ℕ) : ℝ) = s * ((max t.1 t.2 : ℤ) : ℝ) := by
    push_cast
    rw [hw, hh, mul_max_of_nonneg _ _ hs.le]
  have hm0 : ((max t.1 t.2 : ℤ) : ℝ) ≠ 0 := by
    have : 0 < max t.1 t.2 := lt_max_of_lt_left ht1
    exact_mod_cast this.ne'
  unfold intParam
  rw [hu]
  refine ⟨_, _, rfl, rfl, rfl, rfl, ?_, ?_, ?_, ?_⟩
  · simp only [brownParam, kMat, sigmaXY, Matrix.of_apply, Matrix.cons_val_zero, Matrix.cons_val', Matrix.cons_val_fin_one, hw]
    field_simp
  · simp only [brownParam, kMat, sigmaXY, Matrix.of_apply, Matrix.cons_val_one, Matrix.cons_val', Matrix.cons_val_fin_one,
      Matrix.cons_val_zero, hh]
    field_simp
  · simp only [brownParam, kMat, centreXY, Matrix.of_apply, Matrix.cons_val_zero, Matrix.cons_val', Matrix.cons_val_fin_one,
      Matrix.cons_val, List.drop, Option.getD_some, hm]
    field_simp
  · simp only [brownParam, kMat, centreXY, Matrix.of_apply, Matrix.cons_val_zero, Matrix.cons_val', Matrix.cons_val_fin_one,
      Matrix.cons_val, List.drop, Option.getD_some, hm]
    field_simp

/-! ## Reading several images (C65) -/

section
variable {K : Type} [Field K] [LinearOrder K] [IsStrictOrderedRing K] [FloorRing K]

theorem readAll {A B : Type} (key : A → String) (val : A → Res B) (es : List A) (d0 : Dict String B) (d : Dict String B)
    (h : es.foldlM (fun d e => do
      let p ← val e
      pure (d.set (key e) p)) d0 = .ok d) :
    (∀ e ∈ es, ∃ p, val e = .ok p) ∧
    ∀ k, (∃ e ∈ es, key e = k ∧ ∃ p, val e = .ok p ∧ Dict.get? d k = some p) ∨
      ((∀ e ∈ es, key e ≠ k) ∧ Dict.get? d k = Dict.get? d0 k) := by
  induction es generalizing d0 with
  | nil =>
    rw [List.foldlM_nil] at h
    have h := Except.ok.inj h
    subst h
    exact ⟨by simp, fun k => Or.inr ⟨by simp, rfl⟩⟩
  | cons e es ih =>
    rw [List.foldlM_cons] at h
    cases hv : val e with
    | error x => simp only [hv] at h; cases h
    | ok p =>
      simp only [hv, Res.ok_bind] at h
      obtain ⟨ih1, ih2⟩ := ih (d0.set (key e) p) h
      refine ⟨?_, fun k => ?_⟩
      · intro a ha
        rcases List.mem_cons.1 ha with rfl | ha
        · exact ⟨p, hv⟩
        · exact ih1 a ha
      · rcases ih2 k with ⟨a, ha, hk, q, hq, hg⟩ | ⟨hn, hg⟩
        · exact Or.inl ⟨a, by simp [ha], hk, q, hq, hg⟩
        · rw [Dict.get?_set] at hg
          by_cases hk : key e = k
          · rw [if_pos hk] at hg
            exact Or.inl ⟨e, by simp, hk, p, hv, hg⟩
          · rw [if_neg hk] at hg
            refine Or.inr ⟨fun a ha => ?_, hg⟩
            rcases List.mem_cons.1 ha with rfl | ha
            · exact hk
            · exact hn a ha

/-- C65, the part that holds: when file names are distinct, and images with the same make, model and serial number have the
same interior parameters, every image has exterior parameters that refer to a camera with its own interior parameters.
Missing: images with the same make, model and serial number and other interior parameters (`C65_zoom_fails`). -/
theorem C65_linked_partial (fs : ExtFuns K) (es : List (ExifObj K)) (ints : Dict String (IntParam K))
    (exts : Dict String (ExtParam K)) (hi : readInt es = .ok ints) (he : readExt fs es = .ok exts)
    (hname : ∀ a ∈ es, ∀ b ∈ es, a.filename = b.filename → a = b)
    (hsame : ∀ a ∈ es, ∀ b ∈ es, a.make = b.make → a.model = b.model → a.serial = b.serial → intParam a = intParam b)
    (hid : ∀ a ∈ es, ∀ b ∈ es, camId a = camId b → a.make = b.make ∧ a.model = b.model ∧ a.serial = b.serial) :
    ∀ e ∈ es, ∃ x p, extParam fs e = .ok x ∧ exts.get? e.filename = some x ∧ intParam e = .ok p ∧
      ints.get? x.camera = some p := by
  intro e hmem
  obtain ⟨i1, i2⟩ := readAll camId intParam es [] ints hi
  obtain ⟨e1, e2⟩ := readAll ExifObj.filename (extParam fs) es [] exts he
  obtain ⟨p, hp⟩ := i1 e hmem
  obtain ⟨x, hx⟩ := e1 e hmem
  have hcam : x.camera = camId e := by
    unfold extParam at hx
    cases hl : e.lla with
    | none => rw [hl] at hx; cases hx
    | some lla =>
      cases hr : e.rpy with
      | none => rw [hl, hr] at hx; cases hx
      | some rpy =>
        rw [hl, hr] at hx
        simp only at hx
        cases h1 : fs.rpyToOpk rpy lla with
        | error y => rw [h1] at hx; cases hx
        | ok o =>
          rw [h1, Res.ok_bind] at hx
          cases h2 : fs.transform lla.2.1 lla.1 lla.2.2 with
          | error y => rw [h2] at hx; cases hx
          | ok w => rw [h2, Res.ok_bind] at hx; cases hx; rfl
  refine ⟨x, p, hx, ?_, hp, ?_⟩
  · rcases e2 e.filename with ⟨a, ha, hk, q, hq, hg⟩ | ⟨hn, -⟩
    · rw [hname a ha e hmem hk, hx] at hq
      rw [hg, ← Except.ok.inj hq]
    · exact absurd rfl (hn e hmem)
  · rw [hcam]
    rcases i2 (camId e) with ⟨a, ha, hk, q, hq, hg⟩ | ⟨hn, -⟩
    · obtain ⟨h1, h2, h3⟩ := hid a ha e hmem hk
      rw [hsame a ha e hmem h1 h2 h3, hp] at hq
      rw [hg, ← Except.ok.inj hq]
    · exact absurd rfl (hn e hmem)

/-- An image of a zoom lens at 35 mm equivalent focal length `f`. -/
def zoomIm (name : String) (f : K) : ExifObj K :=
  { filename := name, imSize := (40, 30), make := some "acme", model := some "z1", serial := none, tagImSize := none,
    sensorSize := none, focalLen := none, focalLen35 := some (.one f), lla := some (1, 2, .one 3), rpy := some (0, 0, 0),
    dewarp := none }

/-- Two images of one camera with the same focal length meet the hypotheses of `C65_linked_partial`. -/
example (fs : ExtFuns K) (f : K) (hf : f ≠ 0) (xyz : K × K × EV K) (opk : K × K × K)
    (ht : ∀ x y z, fs.transform x y z = .ok xyz) (ho : ∀ a b, fs.rpyToOpk a b = .ok opk) :
    ∃ ints exts, readInt [zoomIm "a" f, zoomIm "b" f] = .ok ints ∧ readExt fs [zoomIm "a" f, zoomIm "b" f] = .ok exts ∧
      ∀ e ∈ [zoomIm "a" f, zoomIm "b" f], ∃ x p, extParam fs e = .ok x ∧ exts.get? e.filename = some x ∧
        intParam e = .ok p ∧ ints.get? x.camera = some p := by
  have h1 : ∀ n, intParam (zoomIm n f) =
      .ok { brown := false, imSize := (40, 30), focal := [f / 36], sensor := none, cxy := none, dist := [] } := by
    intro n
    unfold intParam
    rw [usableDewarp_none rfl]
    simp [zoomIm, truthy, EV.truthy, hf]
  have h2 : ∀ n, extParam fs (zoomIm n f) = .ok ⟨xyz, opk, camId (zoomIm n f)⟩ := by
    intro n
    simp only [extParam, zoomIm, ht, ho, Res.ok_bind]
    rfl
  obtain ⟨ints, hi⟩ : ∃ ints, readInt [zoomIm "a" f, zoomIm "b" f] = .ok ints := by
    simp only [readInt, List.foldlM_cons, List.foldlM_nil, h1, Res.ok_bind]
    exact ⟨_, rfl⟩
  obtain ⟨exts, he⟩ : ∃ exts, readExt fs [zoomIm "a" f, zoomIm "b" f] = .ok exts := by
    simp only [readExt, List.foldlM_cons, List.foldlM_nil, h2, Res.ok_bind]
    exact ⟨_, rfl⟩
  refine ⟨ints, exts, hi, he, C65_linked_partial fs _ ints exts hi he ?_ ?_ ?_⟩
  · intro a ha b hb hab
    simp only [List.mem_cons, List.not_mem_nil, or_false] at ha hb
    rcases ha with rfl | rfl <;> rcases hb with rfl | rfl
    · rfl
    · exact absurd hab (by simp [zoomIm])
    · exact absurd hab (by simp [zoomIm])
    · rfl
  · intro a ha b hb _ _ _
    simp only [List.mem_cons, List.not_mem_nil, or_false] at ha hb
    rcases ha with rfl | rfl <;> rcases hb with rfl | rfl <;> simp [h1]
  · intro a ha b hb _
    simp only [List.mem_cons, List.not_mem_nil, or_false] at ha hb
    rcases ha with rfl | rfl <;> rcases hb with rfl | rfl <;> exact ⟨rfl, rfl, rfl⟩

/-- C65: the position passed to the CRS transform is (longitude, latitude, altitude), and the exterior parameters hold its
result. -/
theorem C65_position (fs : ExtFuns K) (e : ExifObj K) (lat lon : K) (alt : EV K) (rpy : K × K × K)
    (hl : e.lla = some (lat, lon, alt)) (hr : e.rpy = some rpy) (xyz : K × K × EV K) (opk : K × K × K)
    (ht : fs.transform lon lat alt = .ok xyz) (ho : fs.rpyToOpk rpy (lat, lon, alt) = .ok opk) :
    extParam fs e = .ok ⟨xyz, opk, camId e⟩ := by
  unfold extParam
  rw [hl, hr]
  simp only [ho, ht, Res.ok_bind]
  rfl

/-- C65: two images of one camera with different focal lengths share the interior parameters of the last one. -/
theorem C65_zoom_fails (f g : K) (hf : f ≠ 0) (hg : g ≠ 0) (hfg : f ≠ g) :
    ∃ ints p q, readInt [zoomIm "a" f, zoomIm "b" g] = .ok ints ∧ intParam (zoomIm "a" f) = .ok p ∧
      ints.get? (camId (zoomIm "a" f)) = some q ∧ p ≠ q := by
  have hp : ∀ (n : String) (x : K), x ≠ 0 → intParam (zoomIm n x) =
      .ok { brown := false, imSize := (40, 30), focal := [x / 36], sensor := none, cxy := none, dist := [] } := by
    intro n x hx
    unfold intParam
    rw [usableDewarp_none rfl]
    simp [zoomIm, truthy, EV.truthy, hx]
  have hid : ∀ (n : String) (x : K), camId (zoomIm n x) = camId (zoomIm "a" f) := fun n x => rfl
  refine ⟨[(camId (zoomIm "a" f),
      { brown := false, imSize := (40, 30), focal := [g / 36], sensor := none, cxy := none, dist := [] })], _, { brown := false, imSize := (40, 30), focal := [g / 36], sensor := none, cxy := none, dist := [] },
      ?_, hp "a" f hf, ?_, ?_⟩
  · unfold readInt
    simp only [List.foldlM_cons, List.foldlM_nil, hp "a" f hf, hp "b" g hg, Res.ok_bind, hid "b" g, Dict.set]
    simp only [pure_bind, Dict.set, if_true]
    rfl
  · simp [Dict.get?]
  · intro h
    rw [IntParam.mk.injEq] at h
    have := h.2.2.1
    rw [List.cons.injEq] at this
    exact hfg (by have h36 : (36 : K) ≠ 0 := by norm_num
                  exact (div_left_inj' h36).1 this.1)

example : (intParam (zoomIm "a" (24 : ℚ))) =
    .ok { brown := false, imSize := (40, 30), focal := [24 / 36], sensor := none, cxy := none, dist := [] } := by
  decide +kernel

end

/-- An image with focal plane resolution tags in pixels per cm. -/
def resFile : ImFile :=
  { filename := "r.jpg", imSize := (40, 30),
    tags := [("EXIF_FocalPlaneResolutionUnit", ['3']), ("EXIF_FocalPlaneXResolution", "(100)".toList),
      ("EXIF_FocalPlaneYResolution", "(100)".toList), ("EXIF_FocalLength", "(6)".toList)],
    exifTags := [], xmp := none }

example : (match exifInit demoParse (fun s => (String.ofList s).toLower) String.ofList resFile >>= intParam with
    | .ok p => decide (p.focal = [6] ∧ p.sensor = some [4, 3])
    | .error _ => false) = true := by decide +kernel

/-- An image with dewarp data, at half its tagged size. -/
noncomputable def dewarpIm : ExifObj ℝ :=
  { filename := "d", imSize := (40, 30), make := none, model := none, serial := none, tagImSize := some (80, 60),
    sensorSize := none, focalLen := none, focalLen35 := none, lla := none, rpy := none,
    dewarp := some [70, 71, 2, 3, 1, 2, 3, 4, 5] }

example : ∃ p k, intParam dewarpIm = .ok p ∧ camK p = .ok k ∧ k 0 0 = 35 ∧ k 0 2 = 20.5 := by
  obtain ⟨p, k, hp, hk, -, -, h0, -, h2, -⟩ := C57_dewarp dewarpIm 70 71 2 3 1 2 3 4 5 (80, 60) rfl (by norm_num) rfl
    (by norm_num) (by norm_num) (1 / 2) (by norm_num [dewarpIm]) (by norm_num [dewarpIm]) (by norm_num)
  refine ⟨p, k, hp, hk, by rw [h0]; norm_num, ?_⟩
  rw [h2]; norm_num [dewarpIm]

end Verif.Exif
