import Verif.Exif.Interior
import Verif.Frame.RotationProps

/-!
# Orientation in XMP tags (C71), and the text of other tags (C56, C57, C65)
-/

set_option autoImplicit false
set_option linter.unusedSectionVars false

namespace Verif.Exif

section
variable {K : Type} [Field K] [LinearOrder K] [IsStrictOrderedRing K] [FloorRing K]

theorem exifInit_xmp {ps : Parse K} {lower str : List Char → String} {f : ImFile} {e : ExifObj K}
    (h : exifInit ps lower str f = .ok e) :
    xmpRpy ps f.xmpDict schemas = .ok e.rpy ∧ xmpDewarp ps f.xmpDict schemas = .ok e.dewarp ∧
    e.make = (f.exifDict.get? "EXIF_Make").map lower ∧ e.model = (f.exifDict.get? "EXIF_Model").map lower ∧
    e.serial = (f.exifDict.get? "EXIF_BodySerialNumber").map str := by
  unfold exifInit at h
  cases h1 : tagImSize ps f.exifDict with
  | error x => simp only [h1] at h; cases h
  | ok a =>
  cases h2 : sensorSize ps f.exifDict f.imSize with
  | error x => simp only [h1, h2] at h; cases h
  | ok b =>
  cases h3 : exifFloat ps f.exifDict "EXIF_FocalLengthIn35mmFilm" with
  | error x => simp only [h1, h2, h3] at h; cases h
  | ok c =>
  cases h4 : exifFloat ps f.exifDict "EXIF_FocalLength" with
  | error x => simp only [h1, h2, h3, h4] at h; cases h
  | ok c =>
  cases h5 : llaOr (xmpLla ps f.xmpDict schemas) (exifLla ps f.exifDict) with
  | error x => simp only [h1, h2, h3, h4, h5] at h; cases h
  | ok l =>
  cases h6 : xmpRpy ps f.xmpDict schemas with
  | error x => simp only [h1, h2, h3, h4, h5, h6] at h; cases h
  | ok r =>
  cases h7 : xmpDewarp ps f.xmpDict schemas with
  | error x => simp only [h1, h2, h3, h4, h5, h6, h7] at h; cases h
  | ok w =>
  simp only [h1, h2, h3, h4, h5, h6, h7, Res.ok_bind] at h
  cases h
  exact ⟨rfl, rfl, rfl, rfl, rfl⟩

/-! ## C71: orientation -/

/-- Specification: the names of the tags with gimbal angles (docs/file_formats/exif_xmp), and the other names for camera angles. -/
def gimbalNames : List String := ["{http://www.dji.com/drone-dji/1.0/}GimbalRollDegree",
  "{http://www.dji.com/drone-dji/1.0/}GimbalPitchDegree", "{http://www.dji.com/drone-dji/1.0/}GimbalYawDegree"]
def senseflyNames : List String := ["{http://ns.sensefly.com/Camera/1.0/}Roll", "{http://ns.sensefly.com/Camera/1.0/}Pitch",
  "{http://ns.sensefly.com/Camera/1.0/}Yaw"]
def pix4dNames : List String := ["{http://pix4d.com/camera/1.0/}Roll", "{http://pix4d.com/camera/1.0/}Pitch",
  "{http://pix4d.com/camera/1.0/}Yaw"]

/-- Specification: the document has the three angles, in degrees, under these names. -/
def Angles (ps : Parse K) (d : Xmp) (names : List String) (r p y : K) : Prop :=
  ∃ a b c s t u, names = [a, b, c] ∧ d.get? a = some (some s) ∧ d.get? b = some (some t) ∧ d.get? c = some (some u) ∧
    ps.flt s = some r ∧ ps.flt t = some p ∧ ps.flt u = some y

/-- Specification: one of the names is missing. -/
def Incomplete (d : Xmp) (names : List String) : Prop := ∃ n ∈ names, d.get? n = none

theorem xmpRpy_angles (ps : Parse K) (d : Xmp) (s : XmpSchema K) (ss : List (XmpSchema K)) (r p y : K)
    (h : Angles ps d s.rpyKeys r p y) : xmpRpy ps d (s :: ss) = .ok (some (r * s.gains.1 + s.offsets.1,
      p * s.gains.2.1 + s.offsets.2.1, y * s.gains.2.2 + s.offsets.2.2)) := by
  obtain ⟨a, b, c, s1, s2, s3, hk, h1, h2, h3, hx, hy, hz⟩ := h
  have ha : d.has a = true := (has_iff _ _).2 ⟨_, h1⟩
  have hb : d.has b = true := (has_iff _ _).2 ⟨_, h2⟩
  have hc : d.has c = true := (has_iff _ _).2 ⟨_, h3⟩
  rw [xmpRpy, if_pos (by simp [countKeys, hk, ha, hb, hc])]
  simp only [hk, mapRes, xmpFloat, h1, h2, h3, hx, hy, hz, orValueError, Res.ok_bind, three]
  rfl

theorem xmpRpy_incomplete (ps : Parse K) (d : Xmp) (s : XmpSchema K) (ss : List (XmpSchema K)) (hl : s.rpyKeys.length = 3)
    (h : Incomplete d s.rpyKeys) : xmpRpy ps d (s :: ss) = xmpRpy ps d ss := by
  obtain ⟨n, hn, h0⟩ := h
  rw [xmpRpy, if_neg]
  intro hc
  unfold countKeys at hc
  have := (List.length_filter_eq_length_iff (l := s.rpyKeys)).1 (hc.trans hl.symm) n hn
  rw [has_iff, h0] at this
  simp at this

/-- C71: with gimbal angles the orientation is the gimbal roll, the gimbal pitch from straight down, and the gimbal yaw,
whatever other angles there are. -/
theorem C71_gimbal (ps : Parse K) (lower str : List Char → String) (f : ImFile) (e : ExifObj K)
    (h : exifInit ps lower str f = .ok e) (r p y : K) (ha : Angles ps f.xmpDict gimbalNames r p y) :
    e.rpy = some (r, p + 90, y) := by
  have h1 := (exifInit_xmp h).1
  unfold schemas at h1
  rw [xmpRpy_angles ps f.xmpDict _ _ r p y ha] at h1
  have := Except.ok.inj h1
  rw [← this]
  simp

/-- C71: without gimbal angles the orientation is the camera angles as they are. -/
theorem C71_camera (ps : Parse K) (lower str : List Char → String) (f : ImFile) (e : ExifObj K)
    (h : exifInit ps lower str f = .ok e) (hg : Incomplete f.xmpDict gimbalNames) (r p y : K)
    (ha : Angles ps f.xmpDict senseflyNames r p y ∨
      Incomplete f.xmpDict senseflyNames ∧ Angles ps f.xmpDict pix4dNames r p y) : e.rpy = some (r, p, y) := by
  have h1 := (exifInit_xmp h).1
  unfold schemas at h1
  rw [xmpRpy_incomplete ps f.xmpDict _ _ rfl hg] at h1
  rcases ha with ha | ⟨hs, ha⟩
  · rw [xmpRpy_angles ps f.xmpDict _ _ r p y ha] at h1
    rw [← Except.ok.inj h1]
    simp
  · rw [xmpRpy_incomplete ps f.xmpDict _ _ rfl hs, xmpRpy_angles ps f.xmpDict _ _ r p y ha] at h1
    rw [← Except.ok.inj h1]
    simp

/-- C71: without complete angles under any of the names there is no orientation, and reading exterior parameters is a
ParamError. -/
theorem C71_no_angles (ps : Parse K) (lower str : List Char → String) (f : ImFile) (e : ExifObj K)
    (h : exifInit ps lower str f = .ok e) (h1 : Incomplete f.xmpDict gimbalNames) (h2 : Incomplete f.xmpDict senseflyNames)
    (h3 : Incomplete f.xmpDict pix4dNames) (fs : ExtFuns K) : e.rpy = none ∧ extParam fs e = .error .paramError := by
  have h0 := (exifInit_xmp h).1
  unfold schemas at h0
  rw [xmpRpy_incomplete ps f.xmpDict _ _ rfl h1, xmpRpy_incomplete ps f.xmpDict _ _ rfl h2,
    xmpRpy_incomplete ps f.xmpDict _ _ rfl h3] at h0
  have hr : e.rpy = none := (Except.ok.inj h0).symm
  refine ⟨hr, ?_⟩
  unfold extParam
  cases e.lla with
  | none => rfl
  | some l => simp only [hr]

/-! ## C56, C57 and C65: text of other tags -/

/-- C56: the tags that are read are those of the default domain, or those of the EXIF domain when there are none. -/
theorem C56_domain (f : ImFile) : (f.tags = [] → f.exifDict = f.exifTags) ∧ (f.tags ≠ [] → f.exifDict = f.tags) := by
  unfold ImFile.exifDict
  constructor
  · intro h; rw [h]; rfl
  · intro h
    rw [if_neg]
    intro h0
    exact h (List.length_eq_zero_iff.1 h0)

/-- C56: so one tag in the default domain hides all tags of the EXIF domain: whatever position that has, none is read. -/
theorem C56_domain_fails (ps : Parse K) (lower str : List Char → String) (f : ImFile) (e : ExifObj K)
    (h : exifInit ps lower str f = .ok e) (ht : f.tags = [("AREA_OR_POINT", "Area".toList)]) (hx : f.xmp = none) :
    e.lla = none := by
  have h1 := exifInit_lla h
  have hd : f.exifDict = [("AREA_OR_POINT", "Area".toList)] := by rw [(C56_domain f).2 (by rw [ht]; simp), ht]
  have hxd : f.xmpDict = [] := by unfold ImFile.xmpDict; rw [hx]
  have h2 : xmpLla ps f.xmpDict schemas = .ok none := xmpLla_missing ps _ (.inl (by rw [hxd]; rfl))
  have h3 : exifLla ps f.exifDict = .ok none := by rw [hd]; rfl
  rw [h2, h3] at h1
  exact (Except.ok.inj h1).symm

/-- C57: the tagged image size is the one of the pixel dimension tags. -/
theorem C57_tagged_size (ps : Parse K) (lower str : List Char → String) (f : ImFile) (e : ExifObj K)
    (h : exifInit ps lower str f = .ok e) (w ht : ℤ) (hw : NumTag ps f.exifDict "EXIF_PixelXDimension" (w : K))
    (hh : NumTag ps f.exifDict "EXIF_PixelYDimension" (ht : K)) (hw0 : w ≠ 0) (hh0 : ht ≠ 0) : e.tagImSize = some (w, ht) := by
  have h1 := (exifInit_ok h).1
  have htr : ∀ n : ℤ, truncInt (n : K) = n := by
    intro n
    unfold truncInt
    split_ifs <;> simp
  unfold tagImSize at h1
  rw [hw.float.1, hh.float.1] at h1
  simp only [Res.ok_bind, EV.truthy, ne_eq, Int.cast_eq_zero, hw0, hh0, not_false_eq_true, decide_true, Bool.and_self, if_true,
    EV.toInt, htr] at h1
  exact (Except.ok.inj h1).symm

/-- C57: without either pixel dimension tag, or if one is zero, there is no tagged image size. -/
theorem C57_no_tagged_size (ps : Parse K) (lower str : List Char → String) (f : ImFile) (e : ExifObj K)
    (h : exifInit ps lower str f = .ok e)
    (hk : f.exifDict.get? "EXIF_PixelXDimension" = none ∨ f.exifDict.get? "EXIF_PixelYDimension" = none ∨
      NumTag ps f.exifDict "EXIF_PixelXDimension" 0 ∨ NumTag ps f.exifDict "EXIF_PixelYDimension" 0) :
    e.tagImSize = none := by
  have h1 := (exifInit_ok h).1
  unfold tagImSize at h1
  rcases hk with hk | hk | hk | hk
  · rw [exifFloat_none ps _ _ hk, Res.ok_bind] at h1
    cases h2 : exifFloat ps f.exifDict "EXIF_PixelYDimension" with
    | error x => rw [h2] at h1; cases h1
    | ok v => rw [h2, Res.ok_bind] at h1; exact (Except.ok.inj h1).symm
  · rw [exifFloat_none ps _ _ hk] at h1
    cases h2 : exifFloat ps f.exifDict "EXIF_PixelXDimension" with
    | error x => rw [h2] at h1; cases h1
    | ok v =>
      rw [h2, Res.ok_bind, Res.ok_bind] at h1
      cases v <;> exact (Except.ok.inj h1).symm
  · rw [hk.float.1, Res.ok_bind] at h1
    cases h2 : exifFloat ps f.exifDict "EXIF_PixelYDimension" with
    | error x => rw [h2] at h1; cases h1
    | ok v =>
      rw [h2, Res.ok_bind] at h1
      cases v with
      | none => exact (Except.ok.inj h1).symm
      | some v =>
        simp only [EV.truthy, ne_eq, not_true_eq_false, decide_false, Bool.false_and, Bool.false_eq_true, if_false] at h1
        exact (Except.ok.inj h1).symm
  · rw [hk.float.1] at h1
    cases h2 : exifFloat ps f.exifDict "EXIF_PixelXDimension" with
    | error x => rw [h2] at h1; cases h1
    | ok v =>
      rw [h2, Res.ok_bind, Res.ok_bind] at h1
      cases v with
      | none => exact (Except.ok.inj h1).symm
      | some v =>
        simp only [EV.truthy, ne_eq, not_true_eq_false, decide_false, Bool.and_false, Bool.false_eq_true, if_false] at h1
        exact (Except.ok.inj h1).symm

/-- Specification: numbers separated by commas. -/
def commas : List (List Char) → List Char
  | [] => []
  | [v] => v
  | v :: vs => v ++ ',' :: commas vs

theorem split_commas (vs : List (List Char)) (hne : vs ≠ []) (h : ∀ v ∈ vs, ',' ∉ v) : splitCh ',' (commas vs) = vs := by
  induction vs with
  | nil => exact absurd rfl hne
  | cons v vs ih =>
    cases vs with
    | nil => exact splitCh_none _ _ (h v (by simp))
    | cons w ws =>
      rw [commas, splitCh_append _ _ _ (h v (by simp)), ih (by simp) fun u hu => h u (by simp [hu])]
      simp

theorem split_last (c : Char) (pre t : List Char) (ht : c ∉ t) : (splitCh c (pre ++ c :: t)).getLastD [] = t := by
  induction pre with
  | nil => rw [List.nil_append, splitCh, if_pos rfl, splitCh_none _ _ ht]; rfl
  | cons x xs ih =>
    rw [List.cons_append, splitCh]
    split_ifs with hx
    · have hne := splitCh_ne c (xs ++ c :: t)
      cases hs : splitCh c (xs ++ c :: t) with
      | nil => exact absurd hs hne
      | cons a l => rw [hs] at ih; rw [List.getLastD_cons]; exact ih
    · cases hs : splitCh c (xs ++ c :: t) with
      | nil => exact absurd hs (splitCh_ne _ _)
      | cons a l =>
        rw [hs] at ih
        cases l with
        | nil =>
          exfalso
          -- there is a separator, so there are at least two parts
          have hlen : ∀ (s : List Char), c ∈ s → 2 ≤ (splitCh c s).length := by
            intro s hs
            induction s with
            | nil => simp at hs
            | cons y ys ihs =>
              rw [splitCh]
              split_ifs with hy
              · have := splitCh_ne c ys
                have : 0 < (splitCh c ys).length := List.length_pos_of_ne_nil this
                simp only [List.length_cons]; omega
              · rcases List.mem_cons.1 hs with hs | hs
                · exact absurd hs.symm hy
                · have := ihs hs
                  cases hq : splitCh c ys with
                  | nil => exact absurd hq (splitCh_ne _ _)
                  | cons z zs => rw [hq] at this; simpa using this
          have := hlen (xs ++ c :: t) (by simp)
          rw [hs] at this
          simp at this
        | cons b m => rw [← ih]; simp [List.getLastD]

/-- C57: dewarp data are the numbers after the last semicolon (before which there is a date). -/
theorem C57_dewarp_text (ps : Parse K) (lower str : List Char → String) (f : ImFile) (e : ExifObj K)
    (h : exifInit ps lower str f = .ok e) (date : List Char) (vs : List (List Char)) (xs : List K) (hne : vs ≠ [])
    (hc : ∀ v ∈ vs, ',' ∉ v ∧ ';' ∉ v) (hx : vs.map ps.flt = xs.map some)
    (hd : f.xmpDict.get? "{http://www.dji.com/drone-dji/1.0/}DewarpData" = some (some (date ++ ';' :: commas vs))) :
    e.dewarp = some xs := by
  have h1 := (exifInit_xmp h).2.1
  have hsemi : ';' ∉ commas vs := by
    clear hx hd hne
    induction vs with
    | nil => simp [commas]
    | cons v vs ih =>
      cases vs with
      | nil => exact (hc v (by simp)).2
      | cons w ws =>
        rw [commas, List.mem_append, List.mem_cons]
        · rintro (hm | hm | hm)
          · exact (hc v (by simp)).2 hm
          · exact absurd hm (by decide)
          · exact ih (fun u hu => hc u (by simp [hu])) hm
        · simp
  have hnums : dewarpNums ps (date ++ ';' :: commas vs) = .ok xs := by
    unfold dewarpNums
    rw [split_last ';' date _ hsemi, split_commas vs hne fun v hv => (hc v hv).1]
    clear h h1 hsemi hd hne hc
    induction vs generalizing xs with
    | nil =>
      cases xs with
      | nil => rfl
      | cons x xs => simp at hx
    | cons v vs ih =>
      cases xs with
      | nil => simp at hx
      | cons x xs =>
        rw [List.map_cons, List.map_cons, List.cons.injEq] at hx
        rw [mapRes, hx.1, ih xs hx.2]
        rfl
  unfold schemas at h1
  have hd' : (some (djiKey "DewarpData")).bind (fun k => f.xmpDict.get? k) = some (some (date ++ ';' :: commas vs)) := hd
  rw [xmpDewarp] at h1
  cases hcs : date ++ ';' :: commas vs with
  | nil => simp at hcs
  | cons c cs =>
    rw [hcs] at hd' hnums
    simp only [hd', hnums, Res.ok_bind] at h1
    exact (Except.ok.inj h1).symm

/-- C65: the camera ID is the make and model in lower case and the serial number as it is, those that there are, separated by
spaces; and `unknown` when there is none. -/
theorem C65_camera_id (ps : Parse K) (lower str : List Char → String) (f : ImFile) (e : ExifObj K)
    (h : exifInit ps lower str f = .ok e) :
    (∀ a b c, f.exifDict.get? "EXIF_Make" = some a → f.exifDict.get? "EXIF_Model" = some b →
      f.exifDict.get? "EXIF_BodySerialNumber" = some c → lower a ≠ "" → lower b ≠ "" → str c ≠ "" →
      camId e = lower a ++ " " ++ lower b ++ " " ++ str c) ∧
    (∀ a b, f.exifDict.get? "EXIF_Make" = some a → f.exifDict.get? "EXIF_Model" = some b →
      f.exifDict.get? "EXIF_BodySerialNumber" = none → lower a ≠ "" → lower b ≠ "" →
      camId e = lower a ++ " " ++ lower b) ∧
    (f.exifDict.get? "EXIF_Make" = none → f.exifDict.get? "EXIF_Model" = none →
      f.exifDict.get? "EXIF_BodySerialNumber" = none → camId e = "unknown") := by
  obtain ⟨-, -, h1, h2, h3⟩ := exifInit_xmp h
  refine ⟨?_, ?_, ?_⟩
  · intro a b c ha hb hc na nb nc
    simp only [camId, h1, h2, h3, ha, hb, hc, Option.map_some, List.filterMap_cons, Option.bind_some, if_neg na, if_neg nb,
      if_neg nc, List.filterMap_nil]
    have : String.intercalate " " [lower a, lower b, str c] = lower a ++ " " ++ lower b ++ " " ++ str c := by
      rfl
    rw [this, if_neg]
    intro h0
    have := congrArg String.toList h0
    simp at this
  · intro a b ha hb hc na nb
    simp only [camId, h1, h2, h3, ha, hb, hc, Option.map_some, List.filterMap_cons, Option.bind_some, if_neg na, if_neg nb,
      Option.map_none, Option.bind_none, List.filterMap_nil]
    have : String.intercalate " " [lower a, lower b] = lower a ++ " " ++ lower b := by
      rfl
    rw [this, if_neg]
    intro h0
    have := congrArg String.toList h0
    simp at this
  · intro ha hb hc
    simp only [camId, h1, h2, h3, ha, hb, hc, Option.map_none, List.filterMap_cons, Option.bind_none, List.filterMap_nil]
    rfl

end

/-! ## C71: where the camera looks -/

open Real Verif.Frame in
/-- orthority/param_io.py:198-199: `np.radians` and `_rpy_to_opk`, in a world whose y axis is north. -/
noncomputable def northFuns (transform : ℝ → ℝ → EV ℝ → Res (ℝ × ℝ × EV ℝ)) : ExtFuns ℝ where
  transform := transform
  rpyToOpk rpy _ := .ok (rpyToOpk (rpy.1 * (π / 180)) (rpy.2.1 * (π / 180)) (rpy.2.2 * (π / 180)) ![0, 1, 0] camToBody)

open Real Verif.Frame in
/-- C71: a gimbal that points straight down (pitch -90°) makes a level camera, turned clockwise by the gimbal yaw. -/
theorem C71_nadir (ps : Parse ℝ) (lower str : List Char → String) (f : ImFile) (e : ExifObj ℝ)
    (h : exifInit ps lower str f = .ok e) (yaw : ℝ) (hy : yaw ∈ Set.Ico (-180) 180)
    (ha : Angles ps f.xmpDict gimbalNames 0 (-90) yaw) (lla : ℝ × ℝ × EV ℝ) (hl : e.lla = some lla)
    (t : ℝ → ℝ → EV ℝ → Res (ℝ × ℝ × EV ℝ)) (x : ExtParam ℝ) (hx : extParam (northFuns t) e = .ok x) :
    x.opk = (0, 0, -(yaw * (π / 180))) := by
  have hr := C71_gimbal ps lower str f e h _ _ _ ha
  have hpi := pi_pos
  have key : rpyToOpk ((0 : ℝ) * (π / 180)) ((-90 + 90 : ℝ) * (π / 180)) (yaw * (π / 180)) ![0, 1, 0] camToBody =
      (0, 0, -(yaw * (π / 180))) := by
    rw [show (0 : ℝ) * (π / 180) = 0 by ring, show (-90 + 90 : ℝ) * (π / 180) = 0 by ring]
    apply C36_yaw
    constructor
    · have : yaw * (π / 180) < 180 * (π / 180) := by
        apply mul_lt_mul_of_pos_right hy.2; positivity
      linarith
    · have : -180 * (π / 180) ≤ yaw * (π / 180) := by
        apply mul_le_mul_of_nonneg_right hy.1; positivity
      linarith
  unfold extParam at hx
  rw [hl] at hx
  simp only [hr, northFuns, key, Res.ok_bind] at hx
  cases ht : t lla.2.1 lla.1 lla.2.2 with
  | error e => rw [ht] at hx; cases hx
  | ok y => rw [ht] at hx; cases hx; rfl

open Real Verif.Frame in
/-- C71: a gimbal to the north at a pitch angle tilts the camera up from straight down by the pitch plus 90°, so that at
pitch 0° it looks to the horizon. -/
theorem C71_tilt (ps : Parse ℝ) (lower str : List Char → String) (f : ImFile) (e : ExifObj ℝ)
    (h : exifInit ps lower str f = .ok e) (pitch : ℝ) (hp : pitch ∈ Set.Icc (-90) 90)
    (ha : Angles ps f.xmpDict gimbalNames 0 pitch 0) (lla : ℝ × ℝ × EV ℝ) (hl : e.lla = some lla)
    (t : ℝ → ℝ → EV ℝ → Res (ℝ × ℝ × EV ℝ)) (x : ExtParam ℝ) (hx : extParam (northFuns t) e = .ok x) :
    x.opk = ((pitch + 90) * (π / 180), 0, 0) := by
  have hr := C71_gimbal ps lower str f e h _ _ _ ha
  have hpi := pi_pos
  have key : rpyToOpk ((0 : ℝ) * (π / 180)) ((pitch + 90 : ℝ) * (π / 180)) ((0 : ℝ) * (π / 180)) ![0, 1, 0] camToBody =
      ((pitch + 90) * (π / 180), 0, 0) := by
    rw [show (0 : ℝ) * (π / 180) = 0 by ring]
    apply C36_pitch
    constructor
    · have : 0 ≤ (pitch + 90) * (π / 180) := mul_nonneg (by linarith [hp.1]) (by positivity)
      linarith
    · have : (pitch + 90) * (π / 180) ≤ 180 * (π / 180) := by
        apply mul_le_mul_of_nonneg_right (by linarith [hp.2]); positivity
      linarith
  unfold extParam at hx
  rw [hl] at hx
  simp only [hr, northFuns, key, Res.ok_bind] at hx
  cases ht : t lla.2.1 lla.1 lla.2.2 with
  | error e => rw [ht] at hx; cases hx
  | ok y => rw [ht] at hx; cases hx; rfl

/-! ## Example -/

/-- A document with gimbal angles and dewarp data. -/
def gimbalXml : Xml :=
  .node "xmpmeta" none [] [.node "Description" none
    [("{http://www.dji.com/drone-dji/1.0/}GimbalRollDegree", ['0']),
     ("{http://www.dji.com/drone-dji/1.0/}GimbalPitchDegree", ['5']),
     ("{http://www.dji.com/drone-dji/1.0/}GimbalYawDegree", ['7']),
     ("{http://www.dji.com/drone-dji/1.0/}DewarpData", "2020-01-01;1,2,3".toList)] []]

example : Angles demoParse (ImFile.xmpDict { demoFile with xmp := some gimbalXml }) gimbalNames 0 5 7 :=
  ⟨_, _, _, _, _, _, rfl, rfl, rfl, rfl, by decide +kernel, by decide +kernel, by decide +kernel⟩

example : (match exifInit demoParse (fun s => (String.ofList s).toLower) String.ofList
      { demoFile with xmp := some gimbalXml } with
    | .ok e => decide (e.rpy = some (0, 95, 7) ∧ e.dewarp = some [1, 2, 3] ∧ camId e = "acme")
    | .error _ => false) = true := by decide +kernel

end Verif.Exif
