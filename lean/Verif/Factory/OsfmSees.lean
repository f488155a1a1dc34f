import Verif.Factory.Create
import Verif.Factory.Frame
import Verif.Frame.RotationProps
import Verif.Readers.Osfm

/-!
# C105: cameras of OpenSfM reconstructions
-/

set_option autoImplicit false

namespace Verif.Create

open Verif.ParamIO Verif.Readers Verif.Factory
open Verif.Frame hiding FrameType ExtParam
open Matrix Real

noncomputable section

/-! ## Model -/

/-- `np.array` of the three floats that the schema of the file asks for. -/
def vec3 : Py ℝ → V3
  | .list [.float x, .float y, .float z] => ![x, y, z]
  | _ => 0

/-- A float that the schema of the file asks for. -/
def floatAt (d : Dict Key (Py ℝ)) (k : String) : ℝ :=
  match Dict.get? d (.str k) with
  | some (.float x) => x
  | _ => 0

/-- orthority/param_io.py:1241-1251: the reference position in the world CRS.  `warp` is `transform` of longitude, latitude and altitude. -/
def refXyz (warp : ℝ → ℝ → ℝ → V3) : Py ℝ → V3
  | .list (.dict root :: _) => match Dict.get? root (.str "reference_lla") with
    | some (.dict r) => warp (floatAt r "longitude") (floatAt r "latitude") (floatAt r "altitude")
    | _ => 0
  | _ => 0

/-- orthority/param_io.py:1255-1258: position and angles of a shot. -/
def osfmPose (ref : V3) (tr ro : Py ℝ) : V3 × (ℝ × ℝ × ℝ) := cvExtToOtyExt (vec3 tr) (rodrigues (vec3 ro)) (some ref)

/-- Items of a dictionary by keys that are strings (all keys are, by the schema of the file). -/
def strKeys {A : Type} (d : Dict Key A) : Dict String A := d.filterMap fun q => q.1.str?.map fun k => (k, q.2)

/-- orthority/factory.py:98-109 `FrameCameras`, with the parameters of a reconstruction file, and camera options `camKw`. -/
def osfmEnv (name stem : String → String) (camKw : Dict String (Py ℝ)) (ints : Dict Key (Dict String (Py ℝ)))
    (exts : Dict Key (OsfmExt (V3 × (ℝ × ℝ × ℝ)))) :
    FrameEnv (Dict String (Py ℝ)) CamObj (Option (V3 × (ℝ × ℝ × ℝ))) (ℝ × ℝ × ℝ) where
  name := name
  stem := stem
  create p := match createCamera p camKw with
    | .error e => .error e
    | .ok c => .ok ⟨c, none⟩
  extrinsic x o := .ok (some (![x.1, x.2.1, x.2.2], o))
  intParam := strKeys ints
  extParam := (strKeys exts).map fun q =>
    (q.1, some ⟨some q.2.camera, some (q.2.pose.1 0, q.2.pose.1 1, q.2.pose.1 2), some q.2.pose.2⟩)

/-! ## Specification -/

/-- The focal lengths of a camera file. -/
def CamFile.fxy (f : CamFile) : ℝ × ℝ :=
  match f.focal with
  | .inl x => (x, x)
  | .inr p => p

/-- OpenSfM's pixel of a point in camera coordinates, see https://opensfm.org/docs/geometry.html: the point is projected and distorted, scaled
by the focal lengths, and offset by the principal point; all this in normalised coordinates, of which the unit is the larger of image width
and height, and the origin the image centre.  `perspective`, `simple_radial` and `radial` cameras are `brown` cameras without some of the
coefficients. -/
def opensfm (f : CamFile) (x : V3) : ℝ × ℝ :=
  let n : ℝ × ℝ := match f.type with
    | .fisheye =>
      let r := sqrt (x 0 ^ 2 + x 1 ^ 2)
      let t := arctan (r / x 2)
      let d := 1 + f.get "k1" * t ^ 2 + f.get "k2" * t ^ 4
      (d * t * x 0 / r, d * t * x 1 / r)
    | _ =>
      let u := x 0 / x 2
      let v := x 1 / x 2
      let r2 := u ^ 2 + v ^ 2
      let d := 1 + f.get "k1" * r2 + f.get "k2" * r2 ^ 2 + f.get "k3" * r2 ^ 3
      (d * u + 2 * f.get "p1" * u * v + f.get "p2" * (r2 + 2 * u ^ 2), d * v + 2 * f.get "p2" * u * v + f.get "p1" * (r2 + 2 * v ^ 2))
  let size : ℝ := max (f.width : ℝ) f.height
  (size * (f.fxy.1 * n.1 + f.get "cx") + ((f.width : ℝ) - 1) / 2, size * (f.fxy.2 * n.2 + f.get "cy") + ((f.height : ℝ) - 1) / 2)

/-- OpenSfM's camera models, as far as they are supported: the fisheye model has two coefficients. -/
def IsOsfm (f : CamFile) : Prop := f.sensor = none ∧ (f.type = .brown ∨ f.type = .fisheye ∧ f.get "k3" = 0 ∧ f.get "k4" = 0)

/-- The file has this reference point. -/
def FileRef (json : Py ℝ) (lat lon alt : ℝ) : Prop :=
  ∃ root rest r, json = .list (.dict root :: rest) ∧ Dict.get? root (.str "reference_lla") = some (.dict r) ∧
    Dict.get? r (.str "latitude") = some (.float lat) ∧ Dict.get? r (.str "longitude") = some (.float lon) ∧
    Dict.get? r (.str "altitude") = some (.float alt)

/-- A camera with other focal lengths: those of the file, times image width, over the larger of image width and height. -/
def CamFile.byWidth (f : CamFile) : CamFile :=
  { f with focal := .inr (f.fxy.1 * f.width / max (f.width : ℝ) f.height, f.fxy.2 * f.width / max (f.width : ℝ) f.height) }

/-! ## Theorems -/

theorem get?_strKeys {A : Type} (d : Dict Key A) (s : String) : Dict.get? (strKeys d) s = Dict.get? d (.str s) := by
  induction d with
  | nil => rfl
  | cons q d ih =>
    obtain ⟨k, a⟩ := q
    cases k with
    | str t =>
      have : strKeys ((Key.str t, a) :: d) = (t, a) :: strKeys d := rfl
      rw [this, Dict.get?_cons, Dict.get?_cons, ih]
      by_cases h : t = s
      · subst h; simp
      · rw [if_neg h, if_neg (by intro hh; exact h (Key.str.inj hh))]
    | other n =>
      have : strKeys ((Key.other n, a) :: d) = strKeys d := rfl
      rw [this, ih, Dict.get?_cons, if_neg (by intro hh; cases hh)]

theorem get?_mapVal {A B : Type} (g : A → B) (d : Dict String A) (s : String) :
    Dict.get? (d.map fun q => (q.1, g q.2) : Dict String B) s = (Dict.get? d s).map g := by
  induction d with
  | nil => rfl
  | cons q d ih =>
    obtain ⟨k, a⟩ := q
    rw [List.map_cons, Dict.get?_cons, Dict.get?_cons, ih]
    by_cases h : k = s <;> simp [h]

/-- The documented projection, as OpenSfM's. -/
theorem pixel_opensfm (f : CamFile) (hm : IsOsfm f) (hw : f.width ≠ 0) (xyz : V3) (opk : ℝ × ℝ × ℝ) (X x : V3)
    (hx : (extrinsicR opk)ᵀ *ᵥ (X - xyz) = x) (hdep : 0 < x 2) (hoff : f.type = .fisheye → x 0 ≠ 0 ∨ x 1 ≠ 0) :
    f.pixel xyz opk X = (.val (opensfm f.byWidth x).1, .val (opensfm f.byWidth x).2) := by
  have hw' : (0 : ℝ) < f.width := by exact_mod_cast Nat.pos_of_ne_zero hw
  have hmax : max (f.width : ℝ) f.height ≠ 0 := (lt_of_lt_of_le hw' (le_max_left _ _)).ne'
  obtain ⟨hs, ht⟩ := hm
  have hfp : f.focalPx = (f.fxy.1 * f.width, f.fxy.2 * f.width) := by
    unfold CamFile.focalPx CamFile.fxy
    rw [hs]
    cases f.focal <;> rfl
  unfold CamFile.pixel opensfm
  rw [hx, hfp]
  generalize hM : max (f.width : ℝ) f.height = M at *
  have hb : f.byWidth.fxy = (f.fxy.1 * f.width / M, f.fxy.2 * f.width / M) := by rw [← hM]; rfl
  have hb1 : f.byWidth.type = f.type := rfl
  have hb2 : f.byWidth.width = f.width := rfl
  have hb3 : f.byWidth.height = f.height := rfl
  have hb4 : ∀ n, f.byWidth.get n = f.get n := fun _ => rfl
  simp only [hb, hb1, hb2, hb3, hb4, hM]
  unfold CamFile.centrePx CamFile.distorted
  rw [hM]
  rcases ht with ht | ⟨ht, h3, h4⟩
  · simp only [ht, Fl.val_mul, Fl.val_add]
    congr 2 <;> field_simp <;> ring
  · have hpos : 0 < x 0 ^ 2 + x 1 ^ 2 := by
      rcases hoff ht with h | h <;> positivity
    have hr : sqrt ((x 0 / x 2) ^ 2 + (x 1 / x 2) ^ 2) = sqrt (x 0 ^ 2 + x 1 ^ 2) / x 2 := by
      rw [div_pow, div_pow, ← add_div, sqrt_div hpos.le, sqrt_sq hdep.le]
    have hr0 : sqrt (x 0 ^ 2 + x 1 ^ 2) ≠ 0 := (sqrt_pos.2 hpos).ne'
    have hz := hdep.ne'
    simp only [ht, hr, h3, h4]
    rw [Fl.val_div, if_neg (div_ne_zero hr0 hz)]
    simp only [Fl.val_mul, Fl.val_add]
    congr 2 <;> field_simp <;> ring

theorem refXyz_eq (warp : ℝ → ℝ → ℝ → V3) {json : Py ℝ} {lat lon alt : ℝ} (h : FileRef json lat lon alt) :
    refXyz warp json = warp lon lat alt := by
  obtain ⟨root, rest, r, rfl, h1, h2, h3, h4⟩ := h
  simp only [refXyz, h1, floatAt, h2, h3, h4]

/-- C105: what the cameras of a reconstruction file see.  Let a file have a shot, with rotation vector `r`, translation `t`, and a camera `f`.
Whatever images cameras were asked for before, the camera of the shot's image puts a world point at the pixel where OpenSfM puts it, but
for the focal lengths, which are in units of image width in place of the larger of image width and height.  World coordinates are offset
from those of OpenSfM by the position of the reference point.  Points at or behind the camera, on the axis of a fisheye camera (C46), and cameras
with the X axis of the world along their axis (C35), are excluded. -/
theorem C105_seen_partial (py : PyFuns ℝ) (hpy : ∀ v w x y, IsNum v x → IsNum w y → (py.eq v w = true ↔ x = y))
    (warp : ℝ → ℝ → ℝ → V3) (json : Py ℝ) (ints : Dict Key (Dict String (Py ℝ))) (exts : Dict Key (OsfmExt (V3 × (ℝ × ℝ × ℝ))))
    (h : readOsfm py (osfmPose (refXyz warp json)) json = .ok (ints, exts)) (hok : FileOk json)
    (hid : ∀ a b ca cb, FileCamera json a ca → FileCamera json b cb → stripV2 a = stripV2 b → a = b)
    (lat lon alt : ℝ) (href : FileRef json lat lon alt)
    (name id : String) (r t : V3) (c : List (Key × Py ℝ))
    (hs : FileShot json name id (.list [.float (t 0), .float (t 1), .float (t 2)]) (.list [.float (r 0), .float (r 1), .float (r 2)]))
    (hc : FileCamera json id c) (hne : stripV2 id ≠ "") (hd : Dict.Ok c) (f : CamFile) (hf : OsfmCam py c f) (hm : IsOsfm f)
    (hf0 : f.fxy.1 ≠ 0 ∧ f.fxy.2 ≠ 0) (hw : f.width ≠ 0)
    (camKw : Dict String (Py ℝ)) (hkw : ∀ n ∈ camKw.map Prod.fst, n = "distort" ∨ n = "alpha")
    (nm stem : String → String) (hist : List String) (file : String) (hname : nm file = name) (hg : rodrigues r 2 0 ^ 2 ≠ 1) :
    ∃ cam xyz opk, (osfmEnv nm stem camKw ints exts).getCam ((osfmEnv nm stem camKw ints exts).run .init hist) file =
        .ok (some ⟨cam, some (xyz, opk)⟩) ∧ cam.imSize = (f.width, f.height) ∧
      ∀ X x, x = rodrigues r *ᵥ (X - warp lon lat alt) + t → 0 < x 2 → (f.type = .fisheye → x 0 ≠ 0 ∨ x 1 ≠ 0) →
        cam.worldToPixel xyz opk X = (.val (opensfm f.byWidth x).1, .val (opensfm f.byWidth x).2) := by
  obtain ⟨e, p, hext, hpose, hcam, hint, hp⟩ := C24_linked_partial py _ json ints exts h hok hid name id _ _ c hs hc
  have hw' : (f.width : ℝ) ≠ 0 := by exact_mod_cast hw
  have hfp : f.focalPx = (f.fxy.1 * f.width, f.fxy.2 * f.width) := by
    unfold CamFile.focalPx CamFile.fxy
    rw [hm.1]
    cases f.focal <;> rfl
  obtain ⟨cam, hcr, hsz, hpx⟩ := C81_osfm py hpy c hd f hf p hp camKw hkw
    (by rw [hfp]; exact ⟨mul_ne_zero hf0.1 hw', mul_ne_zero hf0.2 hw'⟩)
  have hv : ∀ v : V3, vec3 (.list [.float (v 0), .float (v 1), .float (v 2)]) = v := by
    intro v
    ext i
    fin_cases i <;> rfl
  have hpo : e.pose = cvExtToOtyExt t (rodrigues r) (some (warp lon lat alt)) := by
    rw [hpose, osfmPose, hv, hv, refXyz_eq warp href]
  set q := cvExtToOtyExt t (rodrigues r) (some (warp lon lat alt)) with hq
  refine ⟨cam, q.1, q.2, ?_, hsz, fun X x hx hdep hoff => ?_⟩
  · have := C26_get_ok (osfmEnv nm stem camKw ints exts) hist file
      ⟨some e.camera, some (e.pose.1 0, e.pose.1 1, e.pose.1 2), some e.pose.2⟩ p (q.1 0, q.1 1, q.1 2) q.2 ⟨cam, none⟩ (some q)
      (.inl (by
        change Dict.get? (List.map _ _) (nm file) = _
        rw [hname, get?_mapVal (fun e : OsfmExt (V3 × (ℝ × ℝ × ℝ)) => some (⟨some e.camera,
          some (e.pose.1 0, e.pose.1 1, e.pose.1 2), some e.pose.2⟩ : ExtParam (ℝ × ℝ × ℝ))), get?_strKeys, hext]
        rfl))
      (.inl ⟨e.camera, rfl, by rw [hcam]; exact hne, by change Dict.get? (strKeys ints) _ = _; rw [get?_strKeys, hint]⟩)
      (by rw [hpo]) (by rw [hpo]) (by simp only [osfmEnv, hcr])
      (by
        have : (![q.1 0, q.1 1, q.1 2] : V3) = q.1 := by ext i; fin_cases i <;> rfl
        simp only [osfmEnv, this])
    exact this
  · have hcc : (extrinsicR q.2)ᵀ *ᵥ (X - q.1) = x := by
      rw [hx, hq, C35_rodrigues_partial r t X _ hg]
      rfl
    rw [hpx _ _ _ (by rw [hcc]; exact hdep.ne')]
    exact pixel_opensfm f hm hw _ _ X x hcc hdep hoff

/-- Focal lengths are the same in landscape format. -/
theorem opensfm_byWidth (f : CamFile) (hl : f.height ≤ f.width) (hw : f.width ≠ 0) (x : V3) : opensfm f.byWidth x = opensfm f x := by
  have hw' : (f.width : ℝ) ≠ 0 := by exact_mod_cast hw
  have hmax : max (f.width : ℝ) f.height = f.width := max_eq_left (by exact_mod_cast hl)
  have hb : f.byWidth.fxy = f.fxy := by
    change (f.fxy.1 * f.width / max (f.width : ℝ) f.height, f.fxy.2 * f.width / max (f.width : ℝ) f.height) = _
    rw [hmax, mul_div_cancel_right₀ _ hw', mul_div_cancel_right₀ _ hw']
  unfold opensfm
  rw [hb]
  rfl

/-- C105 (part): so points are seen where OpenSfM sees them, in images that are not in portrait format.  Missing: portrait format
(`C105_portrait_fails`), and what `C105_seen_partial` excludes. -/
theorem C105_sees_partial (py : PyFuns ℝ) (hpy : ∀ v w x y, IsNum v x → IsNum w y → (py.eq v w = true ↔ x = y))
    (warp : ℝ → ℝ → ℝ → V3) (json : Py ℝ) (ints : Dict Key (Dict String (Py ℝ))) (exts : Dict Key (OsfmExt (V3 × (ℝ × ℝ × ℝ))))
    (h : readOsfm py (osfmPose (refXyz warp json)) json = .ok (ints, exts)) (hok : FileOk json)
    (hid : ∀ a b ca cb, FileCamera json a ca → FileCamera json b cb → stripV2 a = stripV2 b → a = b)
    (lat lon alt : ℝ) (href : FileRef json lat lon alt)
    (name id : String) (r t : V3) (c : List (Key × Py ℝ))
    (hs : FileShot json name id (.list [.float (t 0), .float (t 1), .float (t 2)]) (.list [.float (r 0), .float (r 1), .float (r 2)]))
    (hc : FileCamera json id c) (hne : stripV2 id ≠ "") (hd : Dict.Ok c) (f : CamFile) (hf : OsfmCam py c f) (hm : IsOsfm f)
    (hf0 : f.fxy.1 ≠ 0 ∧ f.fxy.2 ≠ 0) (hw : f.width ≠ 0) (hl : f.height ≤ f.width)
    (camKw : Dict String (Py ℝ)) (hkw : ∀ n ∈ camKw.map Prod.fst, n = "distort" ∨ n = "alpha")
    (nm stem : String → String) (hist : List String) (file : String) (hname : nm file = name) (hg : rodrigues r 2 0 ^ 2 ≠ 1) :
    ∃ cam xyz opk, (osfmEnv nm stem camKw ints exts).getCam ((osfmEnv nm stem camKw ints exts).run .init hist) file =
        .ok (some ⟨cam, some (xyz, opk)⟩) ∧
      ∀ X x, x = rodrigues r *ᵥ (X - warp lon lat alt) + t → 0 < x 2 → (f.type = .fisheye → x 0 ≠ 0 ∨ x 1 ≠ 0) →
        cam.worldToPixel xyz opk X = (.val (opensfm f x).1, .val (opensfm f x).2) := by
  obtain ⟨cam, xyz, opk, h1, -, h2⟩ := C105_seen_partial py hpy warp json ints exts h hok hid lat lon alt href name id r t c hs hc hne hd f hf hm
    hf0 hw camKw hkw nm stem hist file hname hg
  refine ⟨cam, xyz, opk, h1, fun X x hx h3 h4 => ?_⟩
  rw [h2 X x hx h3 h4, opensfm_byWidth f hl hw]

/-- Focal lengths are different in portrait format. -/
theorem opensfm_portrait (f : CamFile) (hf0 : f.fxy.1 ≠ 0 ∧ f.fxy.2 ≠ 0) (ht : f.type = .brown) (h0 : ∀ n ∈ coefficients .brown, f.get n = 0)
    (hl : f.width < f.height) (x : V3) (hdep : 0 < x 2) :
    (x 0 ≠ 0 → (opensfm f.byWidth x).1 ≠ (opensfm f x).1) ∧ (x 1 ≠ 0 → (opensfm f.byWidth x).2 ≠ (opensfm f x).2) := by
  have hl' : (f.width : ℝ) < f.height := by exact_mod_cast hl
  have hmax : max (f.width : ℝ) f.height = f.height := max_eq_right hl'.le
  have hh : (f.height : ℝ) ≠ 0 := (lt_of_le_of_lt (Nat.cast_nonneg _) hl').ne'
  have hz := hdep.ne'
  have hb : f.byWidth.fxy = (f.fxy.1 * f.width / f.height, f.fxy.2 * f.width / f.height) := by rw [← hmax]; rfl
  have hb1 : f.byWidth.type = f.type := rfl
  have hb2 : f.byWidth.width = f.width := rfl
  have hb3 : f.byWidth.height = f.height := rfl
  have hb4 : ∀ n, f.byWidth.get n = f.get n := fun _ => rfl
  have hk : f.get "k1" = 0 ∧ f.get "k2" = 0 ∧ f.get "p1" = 0 ∧ f.get "p2" = 0 ∧ f.get "k3" = 0 :=
    ⟨h0 _ (by decide), h0 _ (by decide), h0 _ (by decide), h0 _ (by decide), h0 _ (by decide)⟩
  obtain ⟨k1, k2, p1, p2, k3⟩ := hk
  unfold opensfm
  simp only [hb, hb1, hb2, hb3, hb4, hmax, ht, k1, k2, p1, p2, k3, zero_mul, mul_zero, add_zero, one_mul]
  refine ⟨fun hx he => ?_, fun hx he => ?_⟩
  · have : (f.width : ℝ) * (f.fxy.1 * x 0) = f.height * (f.fxy.1 * x 0) := by
      field_simp at he
      linarith
    exact hl'.ne (mul_right_cancel₀ (mul_ne_zero hf0.1 hx) this)
  · have : (f.width : ℝ) * (f.fxy.2 * x 1) = f.height * (f.fxy.2 * x 1) := by
      field_simp at he
      linarith
    exact hl'.ne (mul_right_cancel₀ (mul_ne_zero hf0.2 hx) this)

/-- C105 fails in portrait format: no camera of a reconstruction file that has images higher than wide, and no distortion, sees a point at the
row and column where OpenSfM does, unless the point is on an axis of the image. -/
theorem C105_portrait_fails (py : PyFuns ℝ) (hpy : ∀ v w x y, IsNum v x → IsNum w y → (py.eq v w = true ↔ x = y))
    (d : Dict Key (Py ℝ)) (hd : Dict.Ok d) (f : CamFile) (h : OsfmCam py d f) (p : Dict String (Py ℝ)) (hp : parseOsfmParam py d = .ok p)
    (camKw : Dict String (Py ℝ)) (hkw : ∀ n ∈ camKw.map Prod.fst, n = "distort" ∨ n = "alpha")
    (hf0 : f.fxy.1 ≠ 0 ∧ f.fxy.2 ≠ 0) (ht : f.type = .brown) (h0 : ∀ n ∈ coefficients .brown, f.get n = 0)
    (hw : f.width ≠ 0) (hl : f.width < f.height) :
    ∃ c, createCamera p camKw = .ok c ∧ ∀ xyz opk X x, (extrinsicR opk)ᵀ *ᵥ (X - xyz) = x → 0 < x 2 →
      (x 0 ≠ 0 → (c.worldToPixel xyz opk X).1 ≠ .val (opensfm f x).1) ∧ (x 1 ≠ 0 → (c.worldToPixel xyz opk X).2 ≠ .val (opensfm f x).2) := by
  have hw' : (f.width : ℝ) ≠ 0 := by exact_mod_cast hw
  have hfp : f.focalPx = (f.fxy.1 * f.width, f.fxy.2 * f.width) := by
    unfold CamFile.focalPx CamFile.fxy
    rw [h.sensor.1]
    cases f.focal <;> rfl
  obtain ⟨c, hcr, -, hpx⟩ := C81_osfm py hpy d hd f h p hp camKw hkw
    (by rw [hfp]; exact ⟨mul_ne_zero hf0.1 hw', mul_ne_zero hf0.2 hw'⟩)
  refine ⟨c, hcr, fun xyz opk X x hx hdep => ?_⟩
  rw [hpx _ _ _ (by rw [hx]; exact hdep.ne'), pixel_opensfm f ⟨h.sensor.1, .inl ht⟩ hw xyz opk X x hx hdep (by rw [ht]; intro hh; cases hh)]
  obtain ⟨h1, h2⟩ := opensfm_portrait f hf0 ht h0 hl x hdep
  exact ⟨fun hx he => h1 hx (Fl.val.inj he), fun hx he => h2 hx (Fl.val.inj he)⟩

/-! ## Cases that meet the hypotheses -/

theorem IsNum.unique {v : Py ℝ} {x y : ℝ} (h1 : IsNum v x) (h2 : IsNum v y) : x = y := by
  have := h1.num.symm.trans h2.num
  exact Except.ok.inj this

open Classical in
/-- Python's functions, for the examples. -/
def exPy : PyFuns ℝ := ⟨id, id, fun v w => decide (∃ x, IsNum v x ∧ IsNum w x)⟩

theorem exPy_eq (v w : Py ℝ) (x y : ℝ) (hv : IsNum v x) (hw : IsNum w y) : exPy.eq v w = true ↔ x = y := by
  have hdec : exPy.eq v w = true ↔ ∃ x, IsNum v x ∧ IsNum w x := by
    unfold exPy
    exact @decide_eq_true_iff _ (Classical.propDecidable _)
  rw [hdec]
  constructor
  · rintro ⟨z, h1, h2⟩
    rw [hv.unique h1, hw.unique h2]
  · rintro rfl
    exact ⟨x, hv, hw⟩

/-- A camera. -/
def exCam (w h : ℤ) : List (Key × Py ℝ) :=
  [(.str "projection_type", .str "perspective"), (.str "width", .int w), (.str "height", .int h), (.str "focal", .float 1),
    (.str "k1", .float 0), (.str "k2", .float 0)]

/-- A file with a camera and a shot. -/
def exJson (w h : ℤ) : Py ℝ :=
  .list [.dict [(.str "cameras", .dict [(.str "v2 c", .dict (exCam w h))]),
    (.str "shots", .dict [(.str "a.tif", .dict [(.str "rotation", .list [.float 0, .float 0, .float 0]),
      (.str "translation", .list [.float 0, .float 0, .float 10]), (.str "camera", .str "v2 c")])]),
    (.str "reference_lla", .dict [(.str "latitude", .float 50), (.str "longitude", .float 20), (.str "altitude", .float 3)])]]

/-- What it says of its camera. -/
def exFile (w h : ℕ) : CamFile := ⟨.brown, w, h, .inl 1, none, fun n => if n = "k1" ∨ n = "k2" then some 0 else none⟩

theorem ex_cam (w h : ℕ) : OsfmCam exPy (exCam w h) (exFile w h) := by
  refine ⟨⟨"perspective", rfl, rfl⟩, ⟨rfl, rfl⟩, ⟨.float 1, Or.inl rfl, rfl⟩, ⟨rfl, rfl⟩, ?_, ?_⟩
  · intro n m hn
    simp only [List.mem_cons, List.not_mem_nil, or_false, Prod.mk.injEq] at hn
    rcases hn with ⟨rfl, rfl⟩ | ⟨rfl, rfl⟩ <;> exact ⟨rfl, rfl⟩
  · intro n hn
    have key : ∀ n ∈ coefficients .brown, n = "k1" ∨ n = "k2" ∨ n = "k3" ∨ n = "p1" ∨ n = "p2" := by decide
    rcases key n hn with rfl | rfl | rfl | rfl | rfl
    · exact ⟨.float 0, Or.inl rfl, rfl⟩
    · exact ⟨.float 0, Or.inl rfl, rfl⟩
    all_goals exact rfl

theorem ex_osfm (w h : ℕ) : IsOsfm (exFile w h) := ⟨rfl, .inl rfl⟩

/-- A point below the camera of a landscape image. -/
example : ∃ ints exts cam xyz opk, readOsfm exPy (osfmPose (refXyz (fun x y z => ![x, y, z]) (exJson 30 20))) (exJson 30 20) = .ok (ints, exts) ∧
    (osfmEnv id id [] ints exts).getCam ((osfmEnv id id [] ints exts).run .init []) "a.tif" = .ok (some ⟨cam, some (xyz, opk)⟩) ∧
    cam.worldToPixel xyz opk ![25, 50, 3] = (.val (59 / 2), .val (19 / 2)) := by
  have hread : ∃ ints exts, readOsfm exPy (osfmPose (refXyz (fun x y z => ![x, y, z]) (exJson 30 20))) (exJson 30 20) = .ok (ints, exts) :=
    ⟨_, _, rfl⟩
  obtain ⟨ints, exts, hread⟩ := hread
  have hr : rodrigues 0 = 1 := by
    unfold rodrigues
    ext i j
    fin_cases i <;> fin_cases j <;> simp [norm3]
  obtain ⟨cam, xyz, opk, h1, h2⟩ := C105_sees_partial exPy exPy_eq (fun x y z => ![x, y, z]) (exJson 30 20) ints exts hread
    (by
      intro root rest he
      cases he
      refine ⟨fun cams hc => ?_, fun shots hs => ?_⟩
      · cases hc; exact List.nodup_singleton _
      · cases hs; exact List.nodup_singleton _)
    (by
      intro a b ca cb h1 h2 h3
      have key : ∀ a ca, FileCamera (exJson 30 20) a ca → a = "v2 c" := by
        rintro a ca ⟨root, rest, cams, he, hc, ha⟩
        cases he
        cases hc
        by_contra hne
        rw [Dict.get?_cons, if_neg (by intro hh; exact hne (Key.str.inj hh).symm)] at ha
        cases ha
      rw [key a ca h1, key b cb h2])
    50 20 3 ⟨_, _, _, rfl, rfl, rfl, rfl, rfl⟩ "a.tif" "v2 c" 0 ![0, 0, 10] (exCam 30 20) ⟨_, _, _, _, rfl, rfl, rfl, rfl, rfl, rfl⟩
    ⟨_, _, _, rfl, rfl, rfl⟩ (by decide) (by unfold Dict.Ok; decide) (exFile 30 20) (ex_cam 30 20) (ex_osfm 30 20)
    (by simp [exFile, CamFile.fxy]) (by simp [exFile]) (by simp [exFile]) [] (fun _ h => absurd h List.not_mem_nil) id id [] "a.tif" rfl
    (by rw [hr]; simp)
  refine ⟨ints, exts, cam, xyz, opk, hread, h1, ?_⟩
  rw [h2 _ ![5, 0, 10] (by
    rw [hr, one_mulVec]
    ext i
    fin_cases i <;> norm_num) (by simp) (by intro hh; cases hh)]
  unfold opensfm
  simp [exFile, CamFile.fxy, CamFile.get]
  norm_num

/-- A portrait image. -/
example : ∃ p c, parseOsfmParam exPy (exCam 20 30) = .ok p ∧ createCamera p [] = .ok c ∧
    (c.worldToPixel ![0, 0, 10] (0, 0, 0) ![5, 0, 0]).1 ≠ .val (opensfm (exFile 20 30) ((extrinsicR (0, 0, 0))ᵀ *ᵥ (![5, 0, 0] - ![0, 0, 10]))).1 := by
  have hp : ∃ p, parseOsfmParam exPy (exCam 20 30) = .ok p := ⟨_, rfl⟩
  obtain ⟨p, hp⟩ := hp
  obtain ⟨c, h1, h2⟩ := C105_portrait_fails exPy exPy_eq (exCam 20 30) (by unfold Dict.Ok; decide) (exFile 20 30) (ex_cam 20 30) p hp []
    (fun _ h => absurd h List.not_mem_nil) (by simp [exFile, CamFile.fxy]) rfl
    (by
      intro n _
      unfold CamFile.get exFile
      by_cases h : n = "k1" ∨ n = "k2" <;> simp [h])
    (by simp [exFile]) (by simp [exFile])
  have hx : (extrinsicR (0, 0, 0))ᵀ *ᵥ (![5, 0, 0] - ![0, 0, 10]) = ![5, 0, 10] := by
    unfold extrinsicR opkToRotation flipYZ rotX rotY rotZ
    ext i
    fin_cases i <;> simp [mulVec, dotProduct, Fin.sum_univ_three]
  exact ⟨p, c, hp, h1, (h2 _ _ _ _ rfl (by rw [hx]; simp)).1 (by rw [hx]; simp)⟩

end

end Verif.Create
