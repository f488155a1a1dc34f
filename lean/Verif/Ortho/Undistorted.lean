import Verif.Ortho.FromFiles
import Verif.Factory.ReadIm

/-!
# C82: orthorectification of undistorted images
-/

set_option autoImplicit false

namespace Verif.OrthoProcess

open Verif.Ortho Verif.Dem Verif.Common Verif.Files Verif.ParamIO Verif.Create Verif.ReadIm
open Verif.Frame hiding FrameType

/-! ## Model -/

/-- `FrameCamera.world_to_pixel` of one point (orthority/camera.py:816-841) without distortion, as `Camera.remap` calls it (camera.py:372): with the matrix
for undistorted images, a NaN coordinate gives a NaN pixel. -/
noncomputable def undW2p (Ku : M3) (xyz : V3) (opk : ℝ × ℝ × ℝ) (x y z : Pix ℝ) : Pix ℝ × Pix ℝ :=
  match x, y, z with
  | some x, some y, some z => (some (undPixel Ku xyz opk ![x, y, z]).1, some (undPixel Ku xyz opk ![x, y, z]).2)
  | _, _, _ => (none, none)

/-- A 2D array. -/
structure Arr where
  h : ℕ
  w : ℕ
  band : Band (Pix ℝ)

/-! ## Specification -/

/-- `cv2.remap` and float32 numbers: there is no sample at (-1, -1), and the sample at a whole pixel is that pixel. -/
structure ExactAtPixels (x : ReadIm.Ext (Pix ℝ)) : Prop where
  border : ∀ i h w b, x.samp i h w b (-1) (-1) = none
  pixel : ∀ i h w b (r c : ℕ), r < h → c < w → x.samp i h w b c r = some (b r c)
  minus : x.f32 (-1) = -1
  whole : ∀ n : ℕ, n < 32767 → x.f32 n = n

/-- `nd` is nodata of `dtype`. -/
def NodataOf (dtype : String) (nd : Pix ℝ) : Prop :=
  dtype ∈ ["uint8", "uint16"] ∧ nd = some 0 ∨ dtype = "int16" ∧ nd = some (-32768) ∨ dtype ∈ ["float32", "float64"] ∧ nd = none

/-- The bands that `o` remaps are those that `cam.read` gives without distortion and with `alpha` (orthority/ortho.py:446-453), whatever was read
before. -/
def ReadsBands (x : ReadIm.Ext (Pix ℝ)) (cam : CamObj) (alpha : ℝ) (file : Image (Pix ℝ)) (o : Obj ℝ Arr) : Prop :=
  ∀ dtype interp nd b, 1 ≤ b → b ≤ o.count → NodataOf dtype nd → ∃ before : List (ReadArgs (Pix ℝ)), ∀ im src,
    (ReadIm.read x cam (after x cam alpha false (before.map .read)) ⟨file, .one b, some dtype, some nd, interp⟩).2 = .ok im →
      im.bands[0]? = some src → o.read dtype interp b = ⟨im.h, im.w, src⟩

/-- `o` is an `Ortho` of the image `file` with the camera `cam`, without distortion and with `alpha`, at a pose: it projects with the matrix for undistorted
images, and remaps the undistorted bands. -/
structure IsUndistorted (x : ReadIm.Ext (Pix ℝ)) (cam : CamObj) (alpha : ℝ) (xyz : V3) (opk : ℝ × ℝ × ℝ) (file : Image (Pix ℝ)) (o : Obj ℝ Arr) : Prop where
  project : ∀ i, (o.cam i).w2p = undW2p (undistIntrinsic cam.imSize (x.undistort cam) alpha) xyz opk
  sample : ∀ i src u v, (o.cam i).samp src ((o.cam i).f32 u) ((o.cam i).f32 v) = x.samp i src.h src.w src.band (x.f32 u) (x.f32 v)
  bands : ReadsBands x cam alpha file o

/-- `U` is a band of an undistorted image, of a camera at a pose: where the camera without distortion puts a world point on a pixel of `U`, that pixel is the source image,
`imageAt`, where the documented camera sees the point.  (Nothing is said of points on the axis of a fisheye camera: C46.) -/
def Undistorts (cf : CamFile) (fisheye : Prop) (Ku : M3) (xyz : V3) (opk : ℝ × ℝ × ℝ) (imageAt : ℝ → ℝ → Pix ℝ) (U : Band (Pix ℝ)) : Prop :=
  ∀ (Y : V3) (i j : ℕ), FrameCam.camCoords (extrinsicR opk) xyz Y 2 ≠ 0 →
    (fisheye → ¬ (FrameCam.camCoords (extrinsicR opk) xyz Y 0 = 0 ∧ FrameCam.camCoords (extrinsicR opk) xyz Y 1 = 0)) →
    undPixel Ku xyz opk Y = ((j : ℝ), (i : ℝ)) → ∃ u v, cf.pixel xyz opk Y = (.val u, .val v) ∧ U i j = imageAt u v

/-! ## Theorems -/

theorem reads_keep {V : Type} (alpha : ℝ) (l : List (ReadArgs V)) : ReadIm.lastAlpha alpha (l.map .read) = alpha ∧ ReadIm.lastDistort false (l.map .read) = false := by
  induction l with
  | nil => exact ⟨rfl, rfl⟩
  | cons a l ih => exact ih

/-- C82: with a frame camera made of interior parameters, and exterior parameters `xyz` and `opk`, used with `distort=False`, a pixel of the ortho that is in the camera's footprint
is the undistorted image where the camera without distortion sees the centre of the pixel, and each pixel of the undistorted image is the source image where the documented camera sees the same
points.  Nodata, which is outside these images, may be dilated to pixels with a neighbour that has nodata. -/
theorem C82_between (par camKw : Dict String (Py ℝ)) (cf : CamFile) (hpar : Params par cf)
    (hkw : ∀ n ∈ camKw.map Prod.fst, n = "distort" ∨ n = "alpha") (hf : cf.focalPx.1 ≠ 0 ∧ cf.focalPx.2 ≠ 0) (cam : CamObj)
    (hcam : createCamera par camKw = .ok cam) (ht : cam.type ≠ .pinhole) (x : ReadIm.Ext (Pix ℝ)) (hx : ExactAtPixels x) (alpha : ℝ)
    (xyz : V3) (opk : ℝ × ℝ × ℝ) (file : Image (Pix ℝ)) (hs : file.h < 32767 ∧ file.w < 32767)
    (o : Obj ℝ Arr) (ho : IsUndistorted x cam alpha xyz opk file o)
    (hdet : (undistIntrinsic cam.imSize (x.undistort cam) alpha).det ≠ 0) (a : Args ℝ) (hin : a.interp ∈ ["nearest", "average", "bilinear", "cubic", "lanczos"])
    (m : Mem ℝ) (fs fs' : FS (OrthoFile ℝ)) (fault : Option (Fault (OrthoFile ℝ))) (hi : InfoOk o) (hopts : OptsOk a.opts) (path : String)
    (hn : Names a.file path) (h : Process o a m fs fault fs' (.ok ())) :
    ∃ (res : ℝ × ℝ) (dtype : String) (nd : Pix ℝ) (f : OrthoFile ℝ) (d : DemOut ℝ) (h w r0 c0 kw kh : ℕ), fs' = fs.put path (some f) ∧ Choice o a res dtype nd ∧
      DemAt o.dem o.crsEqual (o.call a.demInterp res) m d ∧ Covers o a res d f h w r0 c0 ∧
      ∀ b, 1 ≤ b → b ≤ o.count → (∀ r c, r < h → c < w → ¬ o.InView a res d (r0 + r) (c0 + c) → f.im.data b r c = nd) ∧
        ∀ src, file.bands[b - 1]? = some src → (file.w, file.h) = cam.imSize → ∃ U : Band (Pix ℝ),
          Undistorts cf (cam.type = .fisheye) (undistIntrinsic cam.imSize (x.undistort cam) alpha) xyz opk
            (fun u v => (x.samp a.interp file.h file.w (fun i j => x.conv dtype (src i j)) (x.f32 u) (x.f32 v)).getD nd) U ∧
          ∀ r c z, r < h → c < w → d.arr (r0 + r) (c0 + c) = some z → o.InView a res d (r0 + r) (c0 + c) →
            let xy := f.transform.apply ((c : ℝ) + 1 / 2) ((r : ℝ) + 1 / 2)
            let q := undPixel (undistIntrinsic cam.imSize (x.undistort cam) alpha) xyz opk ![xy.1, xy.2, z]
            (f.im.data b r c = (x.samp a.interp file.h file.w U (x.f32 q.1) (x.f32 q.2)).getD nd ∨ f.im.data b r c = nd) ∧
            ((∀ r' c', r' < h → c' < w → InKernel kw kh r c r' c' → o.ground a res dtype nd d b (r0 + r') (c0 + c') ≠ nd) →
              f.im.data b r c = (x.samp a.interp file.h file.w U (x.f32 q.1) (x.f32 q.2)).getD nd) := by
  obtain ⟨cam', h1, -, hpix⟩ := C81_camera par camKw cf hpar hkw hf
  obtain rfl : cam' = cam := by
    rw [hcam] at h1
    exact (Except.ok.inj h1).symm
  have hnan : o.NanUnseen := by
    intro i dt b x' y'
    simp only [Obj.seen, ho.project, ho.sample, undW2p, Option.getD_none, hx.minus]
    exact hx.border _ _ _ _
  obtain ⟨res, dtype, nd, f, d, hh, w, r0, c0, kw, kh, p1, p2, p3, p4, -, p6⟩ := C82_dilated o a m fs fs' fault hi hnan hopts path hn h
  refine ⟨res, dtype, nd, f, d, hh, w, r0, c0, kw, kh, p1, p2, p3, p4, fun b hb1 hb2 => ⟨fun r c hr hc hv => ?_, fun src hsrc hz => ?_⟩⟩
  · have q := (p6 b r c hb1 hb2 hr hc).1
    rw [Obj.ground, if_neg hv] at q
    exact q.elim id id
  have hdt : dtype ∈ ["uint8", "uint16", "int16", "float32", "float64"] := by
    have := p2.nodata
    simp only [List.mem_cons, List.not_mem_nil, or_false] at this ⊢
    tauto
  obtain ⟨before, hbefore⟩ := ho.bands dtype a.interp nd b hb1 hb2 p2.nodata
  obtain ⟨k1, k2⟩ := reads_keep alpha before
  have hK : (after x cam' alpha false (before.map .read)).Kund = undistIntrinsic cam'.imSize (x.undistort cam') alpha := by
    obtain ⟨ops, e1, e2, -⟩ := after_eq x cam' alpha false (before.map .read)
    rw [e1, ((undEnv x cam').C43_used alpha false ops).2, e2, k1]
    simp [undEnv, ht]
  have hasked : ReadIm.Asked file (.one (b : ℤ)) [src] :=
    ⟨src, by exact_mod_cast hb1, by rw [show ((b : ℤ) - 1).toNat = b - 1 by omega]; exact hsrc, rfl⟩
  have g0 := C84_undistorted x cam' ht alpha false (before.map .read) ⟨file, .one b, some dtype, some nd, a.interp⟩ k2 nd rfl hdt hs hz hin [src] hasked
  obtain ⟨im, g1, g2, g3⟩ := C84_shows x par camKw cam' hcam ht alpha false (before.map .read)
    ⟨file, .one b, some dtype, some nd, a.interp⟩ k2 nd rfl hdt hs hz hin [src]
    hasked
  have him : im.h = file.h ∧ im.w = file.w := by
    rw [g0] at g1
    obtain rfl := Except.ok.inj g1
    exact ⟨rfl, rfl⟩
  obtain ⟨out, hout⟩ : ∃ out, im.bands[0]? = some out := ⟨_, List.getElem?_eq_getElem (by rw [g2]; simp)⟩
  have hband := hbefore im out g1 hout
  rw [him.1, him.2] at hband
  rw [hK] at g3
  refine ⟨out, fun Y i j hY hax hu => ?_, fun r c z hr hc hzv hv => ?_⟩
  · obtain ⟨u, v, e1, e2⟩ := g3 xyz opk Y i j hdet hY hax hu
    exact ⟨u, v, by rw [← hpix xyz opk Y hY]; exact e1, e2 0 src _ rfl hout⟩
  · intro xy q
    have hg : o.ground a res dtype nd d b (r0 + r) (c0 + c) = (x.samp a.interp file.h file.w out (x.f32 q.1) (x.f32 q.2)).getD nd := by
      rw [Obj.ground, if_pos hv, hzv]
      have hxy : d.t.apply (((c0 + c : ℕ) : ℝ) + 1 / 2) (((r0 + r : ℕ) : ℝ) + 1 / 2) = xy := by
        simp only [xy, p4.place]
        congr 1 <;> push_cast <;> ring
      rw [hxy]
      simp only [Obj.seen, ho.project, ho.sample, undW2p]
      rw [hband]
      rfl
    rw [← hg]
    exact p6 b r c hb1 hb2 hr hc

/-- The camera without distortion puts some world point on each pixel, so `Undistorts` speaks of all pixels. -/
theorem undPixel_onto (Ku : M3) (hK : Ku.det ≠ 0) (hrow : Ku 2 0 = 0 ∧ Ku 2 1 = 0 ∧ Ku 2 2 = 1) (xyz : V3) (opk : ℝ × ℝ × ℝ) (i j : ℝ) :
    ∃ Y : V3, FrameCam.camCoords (extrinsicR opk) xyz Y 2 ≠ 0 ∧ undPixel Ku xyz opk Y = (j, i) := by
  set y : V3 := Ku⁻¹.mulVec (homog (j, i)) with hy
  have hKy : Ku.mulVec y = homog (j, i) := by
    rw [hy, Matrix.mulVec_mulVec, Matrix.mul_nonsing_inv _ (isUnit_iff_ne_zero.2 hK), Matrix.one_mulVec]
  have hy2 : y 2 = 1 := by
    have := congrFun hKy 2
    simpa [Matrix.mulVec, dotProduct, Fin.sum_univ_three, hrow.1, hrow.2.1, hrow.2.2, homog] using this
  have hcam : FrameCam.camCoords (extrinsicR opk) xyz (xyz + (extrinsicR opk).mulVec y) = y := by
    rw [FrameCam.camCoords, add_sub_cancel_left, Matrix.mulVec_mulVec, (C33_camera_rotation opk).orth, Matrix.one_mulVec]
  refine ⟨xyz + (extrinsicR opk).mulVec y, by rw [hcam, hy2]; norm_num, ?_⟩
  rw [undPixel, hcam]
  have hu : FrameCam.unitDepth y = y := by
    funext k
    simp [FrameCam.unitDepth, hy2]
  rw [hu, dotK]
  have h0 := congrFun hKy 0
  have h1 := congrFun hKy 1
  simp only [homog, Matrix.cons_val_zero, Matrix.cons_val_one] at h0 h1
  simp [h0, h1]

/-- C82: with a frame camera made of interior parameters, and exterior parameters `xyz` and `opk`, used with `distort=False`, a pixel of the ortho that is in the camera's footprint, and whose
centre the camera without distortion puts on a pixel of the undistorted image, is the source image at the pixel where the documented camera sees it, or nodata if that is outside
the source image; nodata may be dilated, to pixels with a neighbour that has nodata.  (Nothing is said of points on the axis of a fisheye camera: C46.) -/
theorem C82_undistorted (par camKw : Dict String (Py ℝ)) (cf : CamFile) (hpar : Params par cf)
    (hkw : ∀ n ∈ camKw.map Prod.fst, n = "distort" ∨ n = "alpha") (hf : cf.focalPx.1 ≠ 0 ∧ cf.focalPx.2 ≠ 0) (cam : CamObj)
    (hcam : createCamera par camKw = .ok cam) (ht : cam.type ≠ .pinhole) (x : ReadIm.Ext (Pix ℝ)) (hx : ExactAtPixels x) (alpha : ℝ)
    (xyz : V3) (opk : ℝ × ℝ × ℝ) (file : Image (Pix ℝ)) (hs : file.h < 32767 ∧ file.w < 32767)
    (o : Obj ℝ Arr) (ho : IsUndistorted x cam alpha xyz opk file o)
    (hdet : (undistIntrinsic cam.imSize (x.undistort cam) alpha).det ≠ 0) (a : Args ℝ) (hin : a.interp ∈ ["nearest", "average", "bilinear", "cubic", "lanczos"])
    (m : Mem ℝ) (fs fs' : FS (OrthoFile ℝ)) (fault : Option (Fault (OrthoFile ℝ))) (hi : InfoOk o) (hopts : OptsOk a.opts) (path : String)
    (hn : Names a.file path) (h : Process o a m fs fault fs' (.ok ())) :
    ∃ (res : ℝ × ℝ) (dtype : String) (nd : Pix ℝ) (f : OrthoFile ℝ) (d : DemOut ℝ) (h w r0 c0 kw kh : ℕ), fs' = fs.put path (some f) ∧ Choice o a res dtype nd ∧
      DemAt o.dem o.crsEqual (o.call a.demInterp res) m d ∧ Covers o a res d f h w r0 c0 ∧
      ∀ b r c, 1 ≤ b → b ≤ o.count → r < h → c < w →
        (¬ o.InView a res d (r0 + r) (c0 + c) → f.im.data b r c = nd) ∧
        ∀ z i j src, d.arr (r0 + r) (c0 + c) = some z → o.InView a res d (r0 + r) (c0 + c) →
          file.bands[b - 1]? = some src →
          let xy := f.transform.apply ((c : ℝ) + 1 / 2) ((r : ℝ) + 1 / 2)
          let X : V3 := ![xy.1, xy.2, z]
          FrameCam.camCoords (extrinsicR opk) xyz X 2 ≠ 0 →
          (cam.type = .fisheye → ¬ (FrameCam.camCoords (extrinsicR opk) xyz X 0 = 0 ∧ FrameCam.camCoords (extrinsicR opk) xyz X 1 = 0)) →
          (file.w, file.h) = cam.imSize → i < file.h → j < file.w → undPixel (undistIntrinsic cam.imSize (x.undistort cam) alpha) xyz opk X = ((j : ℝ), (i : ℝ)) →
          ∃ u v, cf.pixel xyz opk X = (.val u, .val v) ∧
            (f.im.data b r c = (x.samp a.interp file.h file.w (fun i j => x.conv dtype (src i j)) (x.f32 u) (x.f32 v)).getD nd ∨ f.im.data b r c = nd) ∧
            ((∀ r' c', r' < h → c' < w → InKernel kw kh r c r' c' → o.ground a res dtype nd d b (r0 + r') (c0 + c') ≠ nd) →
              f.im.data b r c = (x.samp a.interp file.h file.w (fun i j => x.conv dtype (src i j)) (x.f32 u) (x.f32 v)).getD nd) := by
  obtain ⟨cam', h1, -, hpix⟩ := C81_camera par camKw cf hpar hkw hf
  obtain rfl : cam' = cam := by
    rw [hcam] at h1
    exact (Except.ok.inj h1).symm
  have hnan : o.NanUnseen := by
    intro i dt b x' y'
    simp only [Obj.seen, ho.project, ho.sample, undW2p, Option.getD_none, hx.minus]
    exact hx.border _ _ _ _
  obtain ⟨res, dtype, nd, f, d, hh, w, r0, c0, kw, kh, p1, p2, p3, p4, -, p6⟩ := C82_dilated o a m fs fs' fault hi hnan hopts path hn h
  refine ⟨res, dtype, nd, f, d, hh, w, r0, c0, kw, kh, p1, p2, p3, p4, fun b r c hb1 hb2 hr hc => ⟨fun hv => ?_, ?_⟩⟩
  · have q := (p6 b r c hb1 hb2 hr hc).1
    rw [Obj.ground, if_neg hv] at q
    exact q.elim id id
  · intro z i j src hzv hv hsrc xy X hX hax hz hi' hj' hu
    have hdt : dtype ∈ ["uint8", "uint16", "int16", "float32", "float64"] := by
      have := p2.nodata
      simp only [List.mem_cons, List.not_mem_nil, or_false] at this ⊢
      tauto
    obtain ⟨before, hbefore⟩ := ho.bands dtype a.interp nd b hb1 hb2 p2.nodata
    obtain ⟨k1, k2⟩ := reads_keep alpha before
    have hK : (after x cam' alpha false (before.map .read)).Kund = undistIntrinsic cam'.imSize (x.undistort cam') alpha := by
      obtain ⟨ops, e1, e2, -⟩ := after_eq x cam' alpha false (before.map .read)
      rw [e1, ((undEnv x cam').C43_used alpha false ops).2, e2, k1]
      simp [undEnv, ht]
    have hasked : ReadIm.Asked file (.one (b : ℤ)) [src] :=
      ⟨src, by exact_mod_cast hb1, by rw [show ((b : ℤ) - 1).toNat = b - 1 by omega]; exact hsrc, rfl⟩
    have g0 := C84_undistorted x cam' ht alpha false (before.map .read) ⟨file, .one b, some dtype, some nd, a.interp⟩ k2 nd rfl hdt hs hz hin [src] hasked
    obtain ⟨im, g1, g2, g3⟩ := C84_shows x par camKw cam' hcam ht alpha false (before.map .read)
      ⟨file, .one b, some dtype, some nd, a.interp⟩ k2 nd rfl hdt hs hz hin [src]
      hasked
    have him : im.h = file.h ∧ im.w = file.w := by
      rw [g0] at g1
      obtain rfl := Except.ok.inj g1
      exact ⟨rfl, rfl⟩
    obtain ⟨out, hout⟩ : ∃ out, im.bands[0]? = some out := ⟨_, List.getElem?_eq_getElem (by rw [g2]; simp)⟩
    have hband := hbefore im out g1 hout
    rw [him.1, him.2] at hband
    rw [hK] at g3
    obtain ⟨u, v, e1, e2⟩ := g3 xyz opk X i j hdet hX hax hu
    have e3 := e2 0 src _ rfl hout
    have hg : o.ground a res dtype nd d b (r0 + r) (c0 + c) =
        (x.samp a.interp file.h file.w (fun i j => x.conv dtype (src i j)) (x.f32 u) (x.f32 v)).getD nd := by
      rw [Obj.ground, if_pos hv, hzv]
      have hxy : d.t.apply (((c0 + c : ℕ) : ℝ) + 1 / 2) (((r0 + r : ℕ) : ℝ) + 1 / 2) = xy := by
        simp only [xy, p4.place]
        congr 1 <;> push_cast <;> ring
      rw [hxy]
      simp only [Obj.seen, ho.project, ho.sample, undW2p]
      rw [hu, hband]
      simp only [Option.getD_some]
      rw [hx.whole j (by omega), hx.whole i (by omega), hx.pixel _ _ _ _ i j hi' hj', Option.getD_some]
      exact e3
    refine ⟨u, v, by rw [← hpix xyz opk X hX]; exact e1, ?_, ?_⟩
    · rw [← hg]
      exact (p6 b r c hb1 hb2 hr hc).1
    · rw [← hg]
      exact (p6 b r c hb1 hb2 hr hc).2

/-! ## An undistorted image -/

/-- Nearest interpolation and exact float32 numbers. -/
noncomputable def undExt : ReadIm.Ext (Pix ℝ) where
  undistort := fun _ p => (kMat (10, 10) (9 / 2, 2))⁻¹.mulVec (homog p)
  f32 := id
  samp := fun _ h w b u v =>
    if 0 ≤ round u ∧ 0 ≤ round v ∧ round u < w ∧ round v < h then some (b (round v).toNat (round u).toNat) else none
  conv := fun _ v => v

theorem undExt_exact : ExactAtPixels undExt := by
  refine ⟨fun i h w b => ?_, fun i h w b r c hr hc => ?_, rfl, fun n _ => rfl⟩
  · have : round (-1 : ℝ) = -1 := by
      rw [round_eq, Int.floor_eq_iff]
      norm_num
    simp [undExt, this]
  · simp [undExt, hr, hc]

/-- An image file whose pixels are numbered. -/
def undFile : Image (Pix ℝ) := ⟨"uint8", 5, 10, [fun i j => some (10 * i + j)]⟩

/-- The ortho of `undFile`, which remaps what `cam` reads without distortion. -/
noncomputable def undObj (cam : CamObj) : Obj ℝ Arr where
  cam i := ⟨undW2p (undistIntrinsic cam.imSize (undExt.undistort cam) 1) ![104, 197, 50] (0, 0, 0), undExt.f32, fun src => undExt.samp i src.h src.w src.band⟩
  frame := true
  distort := false
  pinhole := false
  read dtype interp b :=
    match (ReadIm.read undExt cam (after undExt cam 1 false []) ⟨undFile, .one b, some dtype, some (if dtype = "int16" then some (-32768) else
      if dtype = "uint8" ∨ dtype = "uint16" then some 0 else none), interp⟩).2 with
    | .ok im => ⟨im.h, im.w, im.bands[0]?.getD fun _ _ => none⟩
    | .error _ => ⟨0, 0, fun _ _ => none⟩
  srcErr := none
  srcH := 5
  srcW := 10
  count := 1
  srcDtype := "uint8"
  colors := ["gray"]
  dem := ⟨0, 3, 4, ⟨2, 0, 100, 0, -2, 200⟩⟩
  crsEqual := true
  gsd := 2
  crs := "EPSG:32735"
  orthoSize := (8, 6)
  reproject _ _ d := d
  poly _ _ := []
  fillPoly _ _ _ _ _ := true
  info := demoObj.info
  blank := ⟨fun _ _ _ => none, fun _ _ => false⟩

theorem undObj_is (cam : CamObj) : IsUndistorted undExt cam 1 ![104, 197, 50] (0, 0, 0) undFile (undObj cam) := by
  refine ⟨fun _ => rfl, fun _ _ _ _ => rfl, fun dtype interp nd b _ _ hn => ⟨[], fun im src h1 h2 => ?_⟩⟩
  have hnd : (if dtype = "int16" then some (-32768) else if dtype = "uint8" ∨ dtype = "uint16" then some 0 else none) = nd := by
    rcases hn with ⟨h, rfl⟩ | ⟨rfl, rfl⟩ | ⟨h, rfl⟩
    · simp only [List.mem_cons, List.not_mem_nil, or_false] at h
      rcases h with rfl | rfl <;> simp
    · simp
    · simp only [List.mem_cons, List.not_mem_nil, or_false] at h
      rcases h with rfl | rfl <;> simp
  have h1' : (ReadIm.read undExt cam (after undExt cam 1 false []) ⟨undFile, .one b, some dtype, some nd, interp⟩).2 = .ok im := h1
  simp only [undObj]
  rw [hnd, h1']
  simp only [h2, Option.getD_some]

/-- The hypotheses of `C82_between` and `C82_undistorted` are met. -/
example : ∃ cam fs', createCamera ReadIm.demoParams [("distort", .bool false)] = .ok cam ∧ Params ReadIm.demoParams ReadIm.demoFile ∧
    cam.type ≠ .pinhole ∧ ExactAtPixels undExt ∧ (undFile.w, undFile.h) = cam.imSize ∧
    IsUndistorted undExt cam 1 ![104, 197, 50] (0, 0, 0) undFile (undObj cam) ∧ (undistIntrinsic cam.imSize (undExt.undistort cam) 1).det ≠ 0 ∧
    Process (undObj cam) ⟨.path "ortho.tif", none, "cubic", "cubic", false, some true, none, none, true, [], "gtiff", false⟩
      ⟨fun _ _ _ => some 0, 1⟩ (fun _ => none) none fs' (.ok ()) := by
  obtain ⟨cam, h1, h2, -⟩ := C81_camera ReadIm.demoParams [("distort", .bool false)] ReadIm.demoFile ReadIm.demo_params
    (fun n h => Or.inl (List.mem_singleton.1 h)) (by simp [CamFile.focalPx, ReadIm.demoFile])
  have ht : cam.type = .brown := by
    have : createCamera ReadIm.demoParams [("distort", .bool false)] =
        construct .brown (Dict.erase ReadIm.demoParams "cam_type" ++ [("distort", .bool false)]) := rfl
    exact (construct_shape _ _ _ (this ▸ h1)).1
  have hv : ∀ d, DemAt (undObj cam).dem (undObj cam).crsEqual ((undObj cam).call "cubic" (2, 2)) ⟨fun _ _ _ => some 0, 1⟩ d →
      ∃ i < d.h, ∃ j < d.w, (undObj cam).InView
        ⟨.path "ortho.tif", none, "cubic", "cubic", false, some true, none, none, true, [], "gtiff", false⟩ (2, 2) d i j := by
    intro d hd
    obtain rfl : d = ⟨fun _ _ => some 0, 3, 4, ⟨2, 0, 100, 0, -2, 200⟩⟩ := by
      rcases hd with ⟨-, -, -, rfl⟩ | ⟨-, rfl⟩ <;> rfl
    exact ⟨0, by decide, 0, by decide, rfl, by simp [maskArgs]⟩
  obtain ⟨⟨fs', h⟩, -⟩ := C82_completes (undObj cam)
    ⟨.path "ortho.tif", none, "cubic", "cubic", false, some true, none, none, true, [], "gtiff", false⟩ ⟨fun _ _ _ => some 0, 1⟩ (fun _ => none)
    ⟨demo_infoOk.height, demo_infoOk.width, demo_infoOk.block⟩ ⟨by simp [Dict.Ok], by decide⟩ "ortho.tif" (2, 2) "uint8"
    (Or.inr ⟨rfl, rfl⟩) (Or.inr ⟨Or.inl rfl, rfl⟩)
    ⟨rfl, by decide, Or.inr ⟨by norm_num [undObj], by norm_num [undObj]⟩, hv, ⟨by decide, by decide, Or.inr (Or.inl rfl)⟩⟩
    ⟨Or.inl rfl, Or.inr rfl⟩ (by decide) ⟨by norm_num [undObj], by norm_num [undObj]⟩ (fun p => demo_small p)
  refine ⟨cam, fs', h1, ReadIm.demo_params, by rw [ht]; decide, undExt_exact, h2.symm, undObj_is cam, ?_, h⟩
  have := C44_no_distortion cam.imSize (by rw [h2]; decide) (by rw [h2]; decide) (10, 10) (9 / 2, 2) (by norm_num) 1
  rw [show undistIntrinsic cam.imSize (undExt.undistort cam) 1 = kMat (10, 10) (9 / 2, 2) from this, kMat_det]
  norm_num

end Verif.OrthoProcess
