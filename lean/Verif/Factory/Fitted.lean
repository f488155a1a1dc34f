import Verif.Factory.Create
import Verif.Frame.FitInt

/-!
# C104: cameras made of fitted parameters
-/

set_option autoImplicit false

namespace Verif.Create

open Verif.ParamIO
open Verif.Frame hiding FrameType ExtParam
open Matrix

noncomputable section

/-! ## Model -/

/-- The `CameraType` of a frame camera, which is text (orthority/enums.py:22-40). -/
def typeOf : Frame.FrameType → FrameType
  | .pinhole => .pinhole
  | .brown => .brown
  | .opencv => .opencv
  | .fisheye => .fisheye

/-- A focal length is a number and two are a tuple. -/
def pair : List ℝ → Py ℝ
  | [x] => .float x
  | l => .tuple (l.map .float)

/-- The dictionary of interior parameters that is represented by `p`.  It is what `_fit_frame` returns for a camera, orthority/fit.py:280-288,
and what `fit_frame_exterior` takes, orthority/fit.py:336-348: parameters that are `none` in `p` are not in the dictionary.  `CameraType` is
represented by its text. -/
def intDict (p : IntParam) : Dict String (Py ℝ) :=
  [("cam_type", .str (typeOf p.camType).name), ("im_size", .tuple [.int p.imSize.1, .int p.imSize.2]), ("focal_len", pair p.focal)] ++
    (p.sensor.toList.map fun s => ("sensor_size", .tuple (s.map .float))) ++ (p.cx.toList.map fun x => ("cx", .float x)) ++
    (p.cy.toList.map fun x => ("cy", .float x)) ++ (distNames p.camType).filterMap fun n => (p.dist n).map fun x => (n, .float x)

/-! ## Specification -/

/-- Interior parameters say what `f` says (see docs/file_formats/oty_int.rst). -/
structure Documents (p : IntParam) (f : CamFile) : Prop where
  type : typeOf p.camType = f.type
  size : p.imSize = (f.width, f.height)
  focal : p.focal = match f.focal with
    | .inl x => [x]
    | .inr q => [q.1, q.2]
  sensor : p.sensor = f.sensor.map fun s => [s.1, s.2]
  centre : p.cx = f.opt "cx" ∧ p.cy = f.opt "cy"
  dist : ∀ n ∈ coefficients f.type, p.dist n = f.opt n

/-! ## Theorems -/

theorem coefficients_distNames (t : Frame.FrameType) : coefficients (typeOf t) = distNames t := by
  cases t <;> rfl

theorem Documents.coeff {p : IntParam} {f : CamFile} (h : Documents p f) (n : String) (hn : n ∈ coefficients f.type) : p.coeff n = f.get n := by
  rw [IntParam.coeff, CamFile.get, h.dist n hn]

theorem Documents.intrinsic {p : IntParam} {f : CamFile} (h : Documents p f) : p.intrinsic = .ok (kMat f.focalPx f.centrePx) := by
  unfold IntParam.intrinsic
  rw [h.size, h.sensor, h.centre.1, h.centre.2]
  apply intrinsic_eq
  rw [h.focal]
  cases f.focal <;> rfl

theorem Documents.camToPix {p : IntParam} {f : CamFile} (h : Documents p f) (v : V3) (hv : v 2 = 1) :
    p.camToPix (kMat f.focalPx f.centrePx) v = (.val f.focalPx.1 * (f.distorted (v 0) (v 1)).1 + .val f.centrePx.1,
      .val f.focalPx.2 * (f.distorted (v 0) (v 1)).2 + .val f.centrePx.2) := by
  have hz := h.coeff
  have ht := h.type
  cases hp : p.camType with
  | pinhole =>
    rw [hp] at ht
    unfold IntParam.camToPix CamFile.distorted
    simp only [hp, ← ht, typeOf]
    rw [vec_eq v hv, dotK_kMat]
    simp
  | brown =>
    rw [hp] at ht
    rw [← ht] at hz
    unfold IntParam.camToPix CamFile.distorted
    simp only [hp, ← ht, typeOf]
    rw [hz "k1" (by decide), hz "k2" (by decide), hz "p1" (by decide), hz "p2" (by decide), hz "k3" (by decide)]
    have : brownDistort (f.get "k1") (f.get "k2") (f.get "p1") (f.get "p2") (f.get "k3") v =
        ![v 0 * (1 + f.get "k1" * (v 0 ^ 2 + v 1 ^ 2) + f.get "k2" * (v 0 ^ 2 + v 1 ^ 2) ^ 2 + f.get "k3" * (v 0 ^ 2 + v 1 ^ 2) ^ 3) +
            2 * f.get "p1" * v 0 * v 1 + f.get "p2" * (v 0 ^ 2 + v 1 ^ 2 + 2 * v 0 ^ 2),
          v 1 * (1 + f.get "k1" * (v 0 ^ 2 + v 1 ^ 2) + f.get "k2" * (v 0 ^ 2 + v 1 ^ 2) ^ 2 + f.get "k3" * (v 0 ^ 2 + v 1 ^ 2) ^ 3) +
            f.get "p1" * (v 0 ^ 2 + v 1 ^ 2 + 2 * v 1 ^ 2) + 2 * f.get "p2" * v 0 * v 1, 1] := by
      funext i
      fin_cases i
      · simp [brownDistort]; ring
      · simp [brownDistort]; ring
      · simp [brownDistort, hv]
    rw [this, dotK_kMat]
    simp
  | opencv =>
    rw [hp] at ht
    rw [← ht] at hz
    unfold IntParam.camToPix CamFile.distorted
    simp only [hp, ← ht, typeOf]
    rw [hz "k1" (by decide), hz "k2" (by decide), hz "p1" (by decide), hz "p2" (by decide), hz "k3" (by decide),
      hz "k4" (by decide), hz "k5" (by decide), hz "k6" (by decide), hz "s1" (by decide), hz "s2" (by decide), hz "s3" (by decide),
      hz "s4" (by decide), hz "tx" (by decide), hz "ty" (by decide), C45_trunc]
    simp only [cvCamToPix, hv, div_one, dotK_kMat, cvOrder, List.map_cons, List.map_nil]
    simp
  | fisheye =>
    rw [hp] at ht
    rw [← ht] at hz
    unfold IntParam.camToPix CamFile.distorted
    simp only [hp, ← ht, typeOf]
    rw [hz "k1" (by decide), hz "k2" (by decide), hz "k3" (by decide), hz "k4" (by decide)]
    simp only [fisheyeDistort, C45_fisheye, axisDist]
    simp only [Fl.val_div]
    split
    · simp [dotKFl]
    · simp [dotKFl, kMat]

/-- C104: the camera that C75 and C76 speak of is the documented one: `focal_len` and `sensor_size` scale to the image size, `cx` and `cy` are
zero when they are not given, and so are coefficients. -/
theorem C104_documented (p : IntParam) (f : CamFile) (h : Documents p f) (e : Frame.ExtParam) (X : V3)
    (hdep : ((extrinsicR e.opk).transpose.mulVec (X - e.xyz)) 2 ≠ 0) : p.project e X = .ok (f.pixel e.xyz e.opk X) := by
  unfold IntParam.project
  rw [h.intrinsic, Res.ok_bind, h.camToPix _ (by unfold FrameCam.unitDepth FrameCam.camCoords; exact div_self hdep)]
  rfl

theorem get?_filterMap (g : String → Option ℝ) (l : List String) (n : String) :
    Dict.get? (l.filterMap fun n => (g n).map fun x => (n, Py.float x) : Dict String (Py ℝ)) n =
      if n ∈ l then (g n).map .float else none := by
  induction l with
  | nil => rfl
  | cons a l ih =>
    cases ha : g a with
    | none =>
      rw [List.filterMap_cons_none (by rw [ha]; rfl), ih]
      by_cases hn : n = a
      · subst hn; simp [ha]
      · simp [hn]
    | some x =>
      rw [List.filterMap_cons_some (b := (a, .float x)) (by rw [ha]; rfl), Dict.get?_cons, ih]
      by_cases hn : n = a
      · subst hn; simp [ha]
      · simp [hn, Ne.symm hn]

theorem get?_optional {A : Type} (k : String) (g : A → Py ℝ) (o : Option A) (n : String) :
    Dict.get? (o.toList.map fun x => (k, g x) : Dict String (Py ℝ)) n = if n = k then o.map g else none := by
  cases o with
  | none => simp [Dict.get?]
  | some x =>
    show Dict.get? [(k, g x)] n = _
    rw [Dict.get?_cons]
    by_cases h : n = k
    · subst h; simp
    · rw [if_neg (Ne.symm h), if_neg h]; rfl

theorem intDict_get? (p : IntParam) (n : String) : Dict.get? (intDict p) n =
    if n = "cam_type" then some (.str (typeOf p.camType).name) else if n = "im_size" then some (.tuple [.int p.imSize.1, .int p.imSize.2])
    else if n = "focal_len" then some (pair p.focal) else if n = "sensor_size" then p.sensor.map fun s => .tuple (s.map .float)
    else if n = "cx" then p.cx.map .float else if n = "cy" then p.cy.map .float
    else if n ∈ distNames p.camType then (p.dist n).map .float else none := by
  unfold intDict
  rw [get?_append, get?_append, get?_append, get?_append, get?_filterMap, Dict.get?_cons, Dict.get?_cons, Dict.get?_cons]
  rw [get?_optional "sensor_size" (fun s : List ℝ => .tuple (s.map .float)), get?_optional "cx" (fun x => .float x),
    get?_optional "cy" (fun x => .float x)]
  have hd : ∀ n ∈ distNames p.camType, n ≠ "cx" ∧ n ≠ "cy" ∧ n ≠ "sensor_size" := by
    cases p.camType <;> decide
  by_cases h1 : n = "cam_type"
  · subst h1; simp
  by_cases h2 : n = "im_size"
  · subst h2; simp
  by_cases h3 : n = "focal_len"
  · subst h3; simp
  rw [if_neg (Ne.symm h1), if_neg (Ne.symm h2), if_neg (Ne.symm h3), if_neg h1, if_neg h2, if_neg h3]
  have h0 : Dict.get? ([] : Dict String (Py ℝ)) n = none := rfl
  rw [h0]
  by_cases h4 : n = "sensor_size"
  · subst h4
    rw [if_neg (fun h => (hd _ h).2.2 rfl)]
    simp
  by_cases h5 : n = "cx"
  · subst h5
    rw [if_neg (fun h => (hd _ h).1 rfl)]
    simp
  by_cases h6 : n = "cy"
  · subst h6
    rw [if_neg (fun h => (hd _ h).2.1 rfl)]
    simp
  simp [h4, h5, h6]

theorem Documents.params {p : IntParam} {f : CamFile} (h : Documents p f) : Params (intDict p) f where
  cam_type := by rw [intDict_get?, if_pos rfl, h.type]
  im_size := by rw [intDict_get?, if_neg (by decide), if_pos rfl, h.size]
  focal_len := by
    have := h.focal
    cases hf : f.focal with
    | inl x =>
      refine ⟨.float x, .inl rfl, ?_⟩
      rw [intDict_get?, if_neg (by decide), if_neg (by decide), if_pos rfl, this, hf]
      rfl
    | inr q =>
      refine ⟨.float q.1, .float q.2, .inl rfl, .inl rfl, ?_⟩
      rw [intDict_get?, if_neg (by decide), if_neg (by decide), if_pos rfl, this, hf]
      rfl
  sensor_size := by
    have hg : Dict.get? (intDict p) "sensor_size" = p.sensor.map fun s => .tuple (s.map .float) := by
      rw [intDict_get?, if_neg (by decide), if_neg (by decide), if_neg (by decide), if_pos rfl]
    rw [h.sensor] at hg
    cases hs : f.sensor with
    | none => rw [hs] at hg; exact hg
    | some s => rw [hs] at hg; exact ⟨.float s.1, .float s.2, .inl rfl, .inl rfl, hg⟩
  opt := by
    intro n hn
    have hg : Dict.get? (intDict p) n = (f.opt n).map .float := by
      rw [intDict_get?]
      rcases List.mem_append.1 hn with hn | hn
      · rcases List.mem_cons.1 hn with rfl | hn
        · rw [if_neg (by decide), if_neg (by decide), if_neg (by decide), if_neg (by decide), if_pos rfl, h.centre.1]
        · rw [List.mem_singleton] at hn
          subst hn
          rw [if_neg (by decide), if_neg (by decide), if_neg (by decide), if_neg (by decide), if_neg (by decide), if_pos rfl, h.centre.2]
      · have hn' := hn
        rw [← h.type, coefficients_distNames] at hn'
        have hd : ∀ n ∈ distNames p.camType, n ≠ "cam_type" ∧ n ≠ "im_size" ∧ n ≠ "focal_len" ∧ n ≠ "sensor_size" ∧ n ≠ "cx" ∧ n ≠ "cy" := by
          cases p.camType <;> decide
        obtain ⟨a, b, c, d, e, g⟩ := hd n hn'
        rw [if_neg a, if_neg b, if_neg c, if_neg d, if_neg e, if_neg g, if_pos hn', h.dist n hn]
    cases ho : f.opt n with
    | none => rw [ho] at hg; exact hg
    | some x => rw [ho] at hg; exact ⟨.float x, .inl rfl, hg⟩
  keys := by
    intro n hn
    have := mem_get? hn
    rw [intDict_get?, ← coefficients_distNames, h.type] at this
    by_contra hh
    simp only [List.mem_append, List.mem_cons, List.not_mem_nil, or_false, not_or] at hh
    obtain ⟨⟨a, b, c, d, e, g⟩, i⟩ := hh
    rw [if_neg a, if_neg b, if_neg c, if_neg d, if_neg e, if_neg g, if_neg i] at this
    exact this rfl

/-- C104: the camera that C75 and C76 speak of is the one that `create_camera` makes of the parameters: any dictionary that says what the
parameters say, with or without camera options, makes it, and in particular the parameters themselves. -/
theorem C104_created (p : IntParam) (f : CamFile) (h : Documents p f) (d camKw : Dict String (Py ℝ)) (hd : d = intDict p ∨ Params d f)
    (hkw : ∀ n ∈ camKw.map Prod.fst, n = "distort" ∨ n = "alpha") (hf : f.focalPx.1 ≠ 0 ∧ f.focalPx.2 ≠ 0) :
    ∃ c, createCamera d camKw = .ok c ∧ c.imSize = p.imSize ∧ ∀ (e : Frame.ExtParam) (X : V3), p.project e X = .ok (c.worldToPixel e.xyz e.opk X) := by
  have hp : Params d f := by
    rcases hd with rfl | hd
    · exact h.params
    · exact hd
  obtain ⟨kw, dist, hz, hdist, hc⟩ := createCamera_ok d camKw f hp hkw hf
  refine ⟨_, hc, h.size.symm, ?_⟩
  intro e X
  unfold IntParam.project CamObj.worldToPixel
  rw [h.intrinsic, Res.ok_bind]
  congr 1
  have hq := h.coeff
  have ht := h.type
  unfold IntParam.camToPix CamObj.camToPix
  cases hp : p.camType with
  | pinhole =>
    rw [hp] at ht
    simp only [← ht, typeOf]
  | brown =>
    rw [hp] at ht
    rw [← ht, typeOf] at hz hdist hq
    simp only [distParam, hz "k1" (by decide), hz "k2" (by decide), hz "p1" (by decide), hz "p2" (by decide), hz "k3" (by decide),
      Res.ok_bind] at hdist
    cases hdist
    simp only [← ht, typeOf, hq "k1" (by decide), hq "k2" (by decide), hq "p1" (by decide), hq "p2" (by decide), hq "k3" (by decide)]
  | opencv =>
    rw [hp] at ht
    rw [← ht, typeOf] at hz hdist hq
    simp only [distParam, hz "k1" (by decide), hz "k2" (by decide), hz "p1" (by decide), hz "p2" (by decide), hz "k3" (by decide),
      hz "k4" (by decide), hz "k5" (by decide), hz "k6" (by decide), hz "s1" (by decide), hz "s2" (by decide), hz "s3" (by decide),
      hz "s4" (by decide), hz "tx" (by decide), hz "ty" (by decide), Res.ok_bind] at hdist
    cases hdist
    simp only [← ht, typeOf, hq "k1" (by decide), hq "k2" (by decide), hq "p1" (by decide), hq "p2" (by decide), hq "k3" (by decide),
      hq "k4" (by decide), hq "k5" (by decide), hq "k6" (by decide), hq "s1" (by decide), hq "s2" (by decide), hq "s3" (by decide),
      hq "s4" (by decide), hq "tx" (by decide), hq "ty" (by decide)]
  | fisheye =>
    rw [hp] at ht
    rw [← ht, typeOf] at hz hdist hq
    simp only [distParam, hz "k1" (by decide), hz "k2" (by decide), hz "k3" (by decide), hz "k4" (by decide), Res.ok_bind] at hdist
    cases hdist
    simp only [← ht, typeOf, hq "k1" (by decide), hq "k2" (by decide), hq "k3" (by decide), hq "k4" (by decide)]

/-- C104: the camera that is made of fitted interior parameters, with the fitted exterior parameters of an image, projects every world point
to where OpenCV's calibrated model does.  Missing: poses with phi of 90 or -90 degrees (`C35_gimbal_fails`). -/
theorem C104_fitted_partial (calibrate : Frame.FrameType → Bool → List (List V3) → List (List (ℝ × ℝ)) → ℕ × ℕ → Calib)
    (camId : Frame.FrameType → ℕ → String) (warp : Option (V3 → V3)) (t : Frame.FrameType) (im : ℕ × ℕ) (hw : 0 < im.1) (hh : 0 < im.2)
    (gcps : Dict String (List Gcp)) (hg : gcps.Ok) (ints : Dict String IntParam) (ext : Dict String Frame.ExtParam)
    (h : fitFrame calibrate camId warp t im gcps = .ok (ints, ext)) (c : Calib) (fixed : Bool)
    (hfix : fixed = fixIntrinsic t (gcps.map fun g => g.2.length).sum)
    (hcal : c = calibrate t fixed (gcps.map fun g => g.2.map fun q => q.world warp - refPt warp gcps) (gcps.map fun q => q.2.map Gcp.ji) im)
    (hc : c.Fits t gcps.length) (hK : c.K 0 0 ≠ 0 ∧ c.K 1 1 ≠ 0) (camKw : Dict String (Py ℝ))
    (hkw : ∀ n ∈ camKw.map Prod.fst, n = "distort" ∨ n = "alpha") :
    ∃ id p cam, ints = [(id, p)] ∧ createCamera (intDict p) camKw = .ok cam ∧ cam.imSize = im ∧
      ∀ (k : ℕ) (g : String × List Gcp) (pose : V3 × V3), gcps[k]? = some g → c.poses[k]? = some pose → ¬ Gimbal pose →
        ∃ e, ext[k]? = some (g.1, e) ∧ e.camera = id ∧ ∀ X : V3, (rodrigues pose.1 *ᵥ (X - refPt warp gcps) + pose.2) 2 ≠ 0 →
          cam.worldToPixel e.xyz e.opk X = cvModel t c.K c.dist (rodrigues pose.1 *ᵥ (X - refPt warp gcps) + pose.2) := by
  obtain ⟨id, p, hi, hproj⟩ := C76_projection_partial calibrate camId warp t im hw hh gcps hg ints ext h c fixed hfix hcal hc
  obtain ⟨c', id', hc', -, -, hi', -⟩ := fitFrame_ok h
  rw [hfix, ← hc'] at hcal
  subst hcal
  rw [hi] at hi'
  injection hi' with hq _
  injection hq with _ hp
  let f : CamFile := ⟨typeOf t, im.1, im.2, .inr (c.K 0 0, c.K 1 1), some (im.1, im.2), fun n => if n = "cx" then p.cx else if n = "cy" then p.cy
    else p.dist n⟩
  have hdoc : Documents p f := by
    refine ⟨by rw [hp], by rw [hp], by rw [hp]; rfl, by rw [hp]; rfl, ⟨rfl, rfl⟩, ?_⟩
    intro n hn
    have : n ≠ "cx" ∧ n ≠ "cy" := by
      have key : ∀ n ∈ coefficients (typeOf t), n ≠ "cx" ∧ n ≠ "cy" := by cases t <;> decide
      exact key n hn
    show p.dist n = if n = "cx" then p.cx else if n = "cy" then p.cy else p.dist n
    rw [if_neg this.1, if_neg this.2]
  have hw' : (im.1 : ℝ) ≠ 0 := by positivity
  have hh' : (im.2 : ℝ) ≠ 0 := by positivity
  obtain ⟨cam, hcam, hsz, hpix⟩ := C104_created p f hdoc (intDict p) camKw (.inl rfl) hkw
    ⟨div_ne_zero (mul_ne_zero hK.1 hw') hw', div_ne_zero (mul_ne_zero hK.2 hh') hh'⟩
  refine ⟨id, p, cam, hi, hcam, by rw [hsz, hp], ?_⟩
  intro k g pose hk hpk hgim
  obtain ⟨e, he, hid, hX⟩ := hproj k g pose hk hpk hgim
  refine ⟨e, he, hid, fun X hdep => ?_⟩
  have := hX X hdep
  rw [hpix e X] at this
  exact Except.ok.inj this

/-- C104: the exterior parameters of an image, fitted with the interior parameters of a camera, make a camera that projects each GCP of the
image to its pixel, when that can be done.  The camera is described by `f`: focal lengths and principal point in pixels, and coefficients
that are zero unless they are given.  Missing: fisheye cameras (`C75_fisheye_fails`), and poses with phi of 90 or -90 degrees. -/
theorem C104_gcps_partial (solve : List V3 → List (ℝ × ℝ) → M3 → Option (List ℝ) → V3 × V3) (hs : Exact solve)
    (warp : Option (V3 → V3)) (id : String) (p : IntParam) (rest : Dict String IntParam) (gcps : Dict String (List Gcp)) (hg : gcps.Ok)
    (ext : Dict String Frame.ExtParam) (h : fitExterior solve warp ((id, p) :: rest) gcps = .ok ext)
    (f : CamFile) (hdoc : Documents p f) (hfish : f.type ≠ .fisheye) (hf : f.focalPx.1 ≠ 0 ∧ f.focalPx.2 ≠ 0)
    (d camKw : Dict String (Py ℝ)) (hd : d = intDict p ∨ Params d f) (hkw : ∀ n ∈ camKw.map Prod.fst, n = "distort" ∨ n = "alpha")
    (name : String) (gs : List Gcp) (hgs : (name, gs) ∈ gcps) (K : M3) (hK : K = kMat f.focalPx f.centrePx) (pose : V3 × V3)
    (hpose : ∀ g ∈ gs, Sees K ((coefficients f.type).map f.get) pose (g.world warp) g.ji)
    (hng : ∀ pose, (∀ g ∈ gs, Sees K ((coefficients f.type).map f.get) pose (g.world warp) g.ji) → ¬ Gimbal pose) :
    ∃ cam e, createCamera d camKw = .ok cam ∧ (name, e) ∈ ext ∧
      ∀ g ∈ gs, cam.worldToPixel e.xyz e.opk (g.world warp) = (.val g.ji.1, .val g.ji.2) := by
  have hc : (distNames p.camType).map p.coeff = (coefficients f.type).map f.get := by
    rw [← coefficients_distNames, hdoc.type]
    exact List.map_congr_left fun n hn => hdoc.coeff n hn
  obtain ⟨cam, hcam, -, hpix⟩ := C104_created p f hdoc d camKw hd hkw hf
  obtain ⟨e, he, hX⟩ := C75_gcps_partial solve hs warp id p rest gcps hg ext h
    (by intro hp; apply hfish; rw [← hdoc.type, hp]; rfl) name gs hgs K (by rw [hdoc.intrinsic, hK]) pose (by rw [hc]; exact hpose)
    (by rw [hc]; exact hng)
  refine ⟨cam, e, hcam, he, fun g hg => ?_⟩
  have := hX g hg
  rw [hpix] at this
  exact Except.ok.inj this

/-! ### Concrete cases -/

/-- A Brown camera of 40 by 30 pixels, with one focal length, a sensor size, a principal point and two coefficients. -/
example : let f : CamFile := ⟨.brown, 40, 30, .inl 5, some (8, 6), fun n => if n = "cx" then some (1 / 10) else if n = "k1" then some (1 / 4)
      else if n = "p2" then some (1 / 8) else none⟩
    Documents ⟨.brown, (40, 30), [5], some [8, 6], some (1 / 10), none, f.opt⟩ f ∧ f.focalPx = (25, 25) ∧
      f.centrePx = (47 / 2, 29 / 2) ∧ intDict ⟨.brown, (40, 30), [5], some [8, 6], some (1 / 10), none, f.opt⟩ =
        [("cam_type", .str "brown"), ("im_size", .tuple [.int 40, .int 30]), ("focal_len", .float 5),
          ("sensor_size", .tuple [.float 8, .float 6]), ("cx", .float (1 / 10)), ("k1", .float (1 / 4)), ("p2", .float (1 / 8))] := by
  intro f
  refine ⟨⟨rfl, rfl, rfl, rfl, ⟨rfl, rfl⟩, fun _ _ => rfl⟩, ?_, ?_, rfl⟩
  · simp only [f, CamFile.focalPx]; norm_num
  · have hy : f.opt "cy" = none := rfl
    have hx : f.opt "cx" = some (1 / 10) := rfl
    simp only [CamFile.centrePx, CamFile.get, hx, hy]
    norm_num [f]

/-- The GCPs of `C75_gcps_partial`: whatever exact solver is used, exterior parameters are fitted, and the camera created of the interior
parameters projects all GCPs onto their pixels. -/
example (solve : List V3 → List (ℝ × ℝ) → M3 → Option (List ℝ) → V3 × V3) (hs : Exact solve) :
    ∃ ext cam e, fitExterior solve none [("cam", exInt)] [("a.tif", exGcps), ("b.tif", exGcps)] = .ok ext ∧
      createCamera (intDict exInt) [("distort", .bool true)] = .ok cam ∧ ("b.tif", e) ∈ ext ∧
      ∀ g ∈ exGcps, cam.worldToPixel e.xyz e.opk g.xyz = (.val g.ji.1, .val g.ji.2) := by
  have hok : Dict.Ok [("a.tif", exGcps), ("b.tif", exGcps)] := by unfold Dict.Ok; decide
  obtain ⟨ext, hext⟩ : ∃ ext, fitExterior solve none [("cam", exInt)] [("a.tif", exGcps), ("b.tif", exGcps)] = .ok ext := by
    rw [C75_accepts _ _ _ _ hok]
    refine ⟨by simp, ?_, "cam", exInt, [], _, rfl, exInt_intrinsic⟩
    intro g hg
    simp at hg
    rcases hg with rfl | rfl <;> simp [exGcps]
  have hK : kMat (1, 1) (0, 0) = kMat (CamFile.focalPx ⟨.pinhole, 1, 1, .inl 1, none, fun _ => none⟩)
      (CamFile.centrePx ⟨.pinhole, 1, 1, .inl 1, none, fun _ => none⟩) := by
    simp [CamFile.focalPx, CamFile.centrePx, CamFile.get]
  obtain ⟨cam, e, hcam, he, hpix⟩ := C104_gcps_partial solve hs none "cam" exInt [] _ hok ext hext
    ⟨.pinhole, 1, 1, .inl 1, none, fun _ => none⟩ ⟨rfl, rfl, rfl, rfl, ⟨rfl, rfl⟩, fun _ _ => rfl⟩ (by decide)
    (by simp [CamFile.focalPx]) (intDict exInt) [("distort", .bool true)] (.inl rfl) (by simp) "b.tif" exGcps (by simp) _ hK
    (0, ![0, 0, 1]) exGcps_seen exGcps_no_gimbal
  exact ⟨ext, cam, e, hext, hcam, he, hpix⟩

end

end Verif.Create
