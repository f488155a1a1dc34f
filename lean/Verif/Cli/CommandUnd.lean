import Verif.Cli.Command
import Verif.Ortho.Undistorted

/-!
# C87: commands with `--no-full-remap`
-/

set_option autoImplicit false

namespace Verif.Command

open Verif.Ortho Verif.Dem Verif.Common Verif.Files Verif.OrthoProcess Verif.Factory Verif.Cli Verif.Create Verif.ParamIO Verif.ReadIm
open Verif.Frame (V3 extrinsicR undistIntrinsic FrameCam.camCoords)

/-! ## Model -/

/-- An ortho command with frame cameras and `--no-full-remap` (orthority/cli.py:486-510): cameras are made with `distort=False`, and project with the
matrix for undistorted images, which for pinhole cameras is their intrinsic matrix (orthority/camera.py:736-781, C43). -/
noncomputable def undBatch (env : FrameEnv (Dict String (Py ℝ)) CamObj (Option Pose) (ℝ × ℝ × ℝ)) (x : ReadIm.Ext (Pix ℝ)) (alpha : ℝ)
    (args : Args ℝ) (outDir : String) (fault : String → Option (Fault (OrthoFile ℝ))) :
    Batch (FrameState CamObj (Option Pose)) (CamObj × Pose) Arr where
  get := frameGet env
  project c := match c.1.type with
    | .pinhole => frameW2p c.1 c.2.1 c.2.2
    | _ => undW2p (undistIntrinsic c.1.imSize (x.undistort c.1) alpha) c.2.1 c.2.2
  frame := true
  distort := false
  pinhole c := decide (c.1.type = .pinhole)
  sample i src u v := x.samp i src.h src.w src.band (x.f32 u) (x.f32 v)
  args := args
  outDir := outDir
  stem := env.stem
  fault := fault

/-! ## Specification -/

/-- `f` is the ortho image of `file` with the documented camera `cf` at a pose (`T`, `opk`), without distortion, for the arguments `a`; `cam` is the camera object, `o` the
`Ortho` object. -/
def UndOrthoOf (x : ReadIm.Ext (Pix ℝ)) (alpha : ℝ) (cf : CamFile) (cam : CamObj) (T : V3) (opk : ℝ × ℝ × ℝ) (file : Image (Pix ℝ)) (o : Obj ℝ Arr)
    (a : Args ℝ) (m : Mem ℝ) (f : OrthoFile ℝ) : Prop :=
  ∃ (res : ℝ × ℝ) (dtype : String) (nd : Pix ℝ) (d : DemOut ℝ) (h w r0 c0 kw kh : ℕ), Choice o a res dtype nd ∧
    DemAt o.dem o.crsEqual (o.call a.demInterp res) m d ∧ Covers o a res d f h w r0 c0 ∧
    ∀ b, 1 ≤ b → b ≤ o.count → (∀ r c, r < h → c < w → ¬ o.InView a res d (r0 + r) (c0 + c) → f.im.data b r c = nd) ∧
      ∀ src, file.bands[b - 1]? = some src →
        let imageAt (u v : ℝ) : Pix ℝ := (x.samp a.interp file.h file.w (fun i j => x.conv dtype (src i j)) (x.f32 u) (x.f32 v)).getD nd
        let point (r c : ℕ) (z : ℝ) : V3 := let xy := f.transform.apply ((c : ℝ) + 1 / 2) ((r : ℝ) + 1 / 2)
          ![xy.1, xy.2, z]
        (cam.type = .pinhole → ∀ r c z, r < h → c < w → d.arr (r0 + r) (c0 + c) = some z → o.InView a res d (r0 + r) (c0 + c) →
          FrameCam.camCoords (extrinsicR opk) T (point r c z) 2 ≠ 0 →
          f.im.data b r c = imageAt ((pixOf (cf.pixel T opk (point r c z)).1).getD (-1)) ((pixOf (cf.pixel T opk (point r c z)).2).getD (-1))) ∧
        (cam.type ≠ .pinhole → (file.w, file.h) = cam.imSize → ∃ U : Band (Pix ℝ),
          Undistorts cf (cam.type = .fisheye) (undistIntrinsic cam.imSize (x.undistort cam) alpha) T opk imageAt U ∧
          ∀ r c z, r < h → c < w → d.arr (r0 + r) (c0 + c) = some z → o.InView a res d (r0 + r) (c0 + c) →
            let q := undPixel (undistIntrinsic cam.imSize (x.undistort cam) alpha) T opk (point r c z)
            let undistortedAt : Pix ℝ := (x.samp a.interp file.h file.w U (x.f32 q.1) (x.f32 q.2)).getD nd
            (f.im.data b r c = undistortedAt ∨ f.im.data b r c = nd) ∧
            ((∀ r' c', r' < h → c' < w → InKernel kw kh r c r' c' → o.ground a res dtype nd d b (r0 + r') (c0 + c') ≠ nd) →
              f.im.data b r c = undistortedAt))

/-! ## Theorems -/

theorem und_faithful (env : FrameEnv (Dict String (Py ℝ)) CamObj (Option Pose) (ℝ × ℝ × ℝ)) (x : ReadIm.Ext (Pix ℝ)) (alpha : ℝ)
    (args : Args ℝ) (outDir : String) (fault : String → Option (Fault (OrthoFile ℝ))) :
    Faithful (undBatch env x alpha args outDir fault) (Inv env) (frameSpec env) :=
  ⟨(frame_faithful env (fun _ (_ : Arr) _ _ => none) args outDir fault).get, (frame_faithful env (fun _ (_ : Arr) _ _ => none) args outDir fault).keeps⟩

/-- C87: `oty frame`, `odm` or `exif` with
`--no-full-remap`: when the command ends without an exception, there is an ortho of each source image in the output
directory, in the CRS of the command or of the first image, which covers the camera's footprint on the DEM and no more.  A pixel in the footprint is the undistorted image
where the camera without distortion sees its centre at its elevation, and each pixel of the undistorted image is the source image where the documented camera, with distortion, sees the points that
the camera without distortion puts on it, or nodata where that is outside the source image; nodata may be dilated, to pixels with a neighbour that has nodata.  With pinhole cameras pixels in the
footprint are the source image where the documented camera sees them, and nodata is not dilated.  Pixels outside the footprint are nodata.  No other file is changed.
(Nothing is said of points on the axis of a fisheye camera: C46.) -/
theorem C87_undistorted (name stem : String → String) (camKw : Dict String (Py ℝ)) (hkw : ∀ n ∈ camKw.map Prod.fst, n = "distort" ∨ n = "alpha")
    (intParam : Dict String (Dict String (Py ℝ)))
    (hpar : ∀ k par, (k, par) ∈ intParam → ∃ cf, Params par cf ∧ cf.focalPx.1 ≠ 0 ∧ cf.focalPx.2 ≠ 0)
    (extParam : Dict String (Option (ExtParam (ℝ × ℝ × ℝ)))) (x : ReadIm.Ext (Pix ℝ)) (hx : ExactAtPixels x) (alpha : ℝ)
    (hdet : ∀ k par c, (k, par) ∈ intParam → createCamera par camKw = .ok c → (undistIntrinsic c.imSize (x.undistort c) alpha).det ≠ 0)
    (args : Args ℝ) (hin : args.interp ∈ ["nearest", "average", "bilinear", "cubic", "lanczos"]) (hopts : OptsOk args.opts) (outDir : String)
    (fault : String → Option (Fault (OrthoFile ℝ)))
    (file : String → Image (Pix ℝ)) (srcs : List (Source (CamObj × Pose) Arr)) (hinfo : ∀ s ∈ srcs, ∀ c v o m, s.make c v = .ok (o, m) → InfoOk o)
    (hread : ∀ s ∈ srcs, ∀ c v o m, s.make c v = .ok (o, m) → ReadsBands x c.1 alpha (file s.path) o)
    (hsize : ∀ s ∈ srcs, (file s.path).h < 32767 ∧ (file s.path).w < 32767)
    (hd : (srcs.map fun s => outDir ++ "/" ++ (stem s.path ++ "_ORTHO.tif")).Nodup) (crs : Option String) (fs fs' : FS (OrthoFile ℝ))
    (h : Loop (undBatch (frameEnv name stem camKw intParam extParam) x alpha args outDir fault) .init crs fs srcs fs' (.ok ())) :
    (∀ q, (∀ s ∈ srcs, q ≠ outDir ++ "/" ++ (stem s.path ++ "_ORTHO.tif")) → fs' q = fs q) ∧
    ∀ s ∈ srcs, ∃ e par cf t opk v cam o m f, FoundExt (frameEnv name stem camKw intParam extParam) s.path (some e) ∧ InteriorFor intParam e.camera par ∧
      Params par cf ∧ e.xyz = some t ∧ e.opk = some opk ∧ (crs = some v ∨ (crs = none ∧ srcs.head?.bind Source.crs = some v)) ∧
      createCamera par camKw = .ok cam ∧ s.make (cam, (![t.1, t.2.1, t.2.2], opk)) v = .ok (o, m) ∧
      fs' (outDir ++ "/" ++ (stem s.path ++ "_ORTHO.tif")) = some f ∧
      UndOrthoOf x alpha cf cam ![t.1, t.2.1, t.2.2] opk (file s.path)
        ((undBatch (frameEnv name stem camKw intParam extParam) x alpha args outDir fault).ortho (cam, (![t.1, t.2.1, t.2.2], opk)) v o) args m f := by
  set env := frameEnv name stem camKw intParam extParam with henv
  set bt := undBatch env x alpha args outDir fault with hbt
  have hmem : ∀ id par, InteriorFor intParam id par → ∃ k, (k, par) ∈ intParam := by
    rintro id par (⟨k, -, -, hk⟩ | ⟨-, k, hk⟩)
    · exact ⟨k, Dict.mem_of_get? hk⟩
    · exact ⟨k, by rw [hk]; exact List.mem_singleton.2 rfl⟩
  have hgood : ∀ s ∈ srcs, ∀ c v o m fs fs' fault', frameSpec env s.path = .ok c → s.make c v = .ok (o, m) →
      Process (bt.ortho c v o) (bt.argsFor s) m fs fault' fs' (.ok ()) → ∃ f, fs' = fs.put (bt.out s) (some f) ∧
        ∃ e par cf t opk, FoundExt env s.path (some e) ∧ InteriorFor intParam e.camera par ∧
          Params par cf ∧ e.xyz = some t ∧ e.opk = some opk ∧ createCamera par camKw = .ok c.1 ∧ c.2 = (![t.1, t.2.1, t.2.2], opk) ∧
          UndOrthoOf x alpha cf c.1 ![t.1, t.2.1, t.2.2] opk (file s.path) (bt.ortho c v o) args m f := by
    rintro s hm ⟨c, p⟩ v o m fs fs' fault' h1 h2 h3
    obtain ⟨e, par, t, opk, c1, c2, c3, c4, c5, rfl⟩ := frameSpec_ok h1
    obtain ⟨k, hk⟩ := hmem _ _ c2
    obtain ⟨cf, hp, hf⟩ := hpar k par hk
    have hi := hinfo s hm _ v o m h2
    have hb : ReadsBands x c alpha (file s.path) (bt.ortho (c, (![t.1, t.2.1, t.2.2], opk)) v o) := hread s hm _ v o m h2
    by_cases ht : c.type = .pinhole
    · have hw : ∀ i, ((bt.ortho (c, (![t.1, t.2.1, t.2.2], opk)) v o).cam i).w2p = frameW2p c ![t.1, t.2.1, t.2.2] opk := by
        intro i
        simp only [hbt, undBatch, Batch.ortho, ht]
      have hnan : (bt.ortho (c, (![t.1, t.2.1, t.2.2], opk)) v o).NanUnseen := by
        intro i dt b x' y'
        simp only [Obj.seen, hw, frameW2p, Option.getD_none]
        simp only [hbt, undBatch, Batch.ortho, id, hx.minus]
        exact hx.border _ _ _ _
      obtain ⟨cam', k1, -, hpix⟩ := C81_camera par camKw cf hp hkw hf
      obtain rfl : cam' = c := by
        rw [c5] at k1
        exact (Except.ok.inj k1).symm
      obtain ⟨res, dtype, nd, f, d, hh, w, r0, c0, q1, q2, q3, q4, -, -, -, -, q5⟩ :=
        C82_pixels (bt.ortho (cam', (![t.1, t.2.1, t.2.2], opk)) v o) (bt.argsFor s) m fs fs' fault' ⟨hi.height, hi.width, hi.block⟩ hnan hopts
          (bt.out s) (Or.inr ⟨_, rfl⟩) (Or.inr (Or.inr (Or.inl (by simp [hbt, undBatch, Batch.ortho, ht])))) h3
      refine ⟨f, q1, e, par, cf, t, opk, c1, c2, hp, c3, c4, c5, rfl, res, dtype, nd, d, hh, w, r0, c0, 0, 0,
        ⟨q2.resolution, q2.type, q2.nodata⟩, q3, ⟨q4.inside, q4.place, q4.all, q4.tight⟩, fun b hb1 hb2 => ⟨fun r c hr hc hv => ?_, ?_⟩⟩
      · rw [q5 b r c hb1 hb2 hr hc, Obj.ground]
        exact if_neg hv
      · intro src hsrc imageAt point
        refine ⟨fun _ r c z hr hc hz hv hX => ?_, fun h => absurd ht h⟩
        have hdt : dtype ∈ ["uint8", "uint16", "int16", "float32", "float64"] := by
          have := q2.nodata
          simp only [List.mem_cons, List.not_mem_nil, or_false] at this ⊢
          tauto
        obtain ⟨before, hbefore⟩ := hb dtype args.interp nd b hb1 hb2 q2.nodata
        have hasked : ReadIm.Asked (file s.path) (.one (b : ℤ)) [src] :=
          ⟨src, by exact_mod_cast hb1, by rw [show ((b : ℤ) - 1).toNat = b - 1 by omega]; exact hsrc, rfl⟩
        have g0 := C84_pinhole x cam' ht alpha false (before.map .read) ⟨file s.path, .one b, some dtype, some nd, args.interp⟩
          (reads_keep alpha before).2 nd rfl hdt (hsize s hm) [src] hasked
        have hrd := hbefore _ _ g0 rfl
        rw [q5 b r c hb1 hb2 hr hc, Obj.ground]
        refine (if_pos hv).trans ?_
        rw [hz]
        have hxy : d.t.apply (((c0 + c : ℕ) : ℝ) + 1 / 2) (((r0 + r : ℕ) : ℝ) + 1 / 2) = f.transform.apply ((c : ℝ) + 1 / 2) ((r : ℝ) + 1 / 2) := by
          simp only [q4.place]
          congr 1 <;> push_cast <;> ring
        rw [hxy]
        have hai : (bt.argsFor s).interp = args.interp := rfl
        simp only [Obj.seen, hw, frameW2p, hai]
        rw [hrd, hpix _ opk _ hX]
        rfl
    · have hu : IsUndistorted x c alpha ![t.1, t.2.1, t.2.2] opk (file s.path) (bt.ortho (c, (![t.1, t.2.1, t.2.2], opk)) v o) := by
        refine ⟨fun i => ?_, fun i src u w => rfl, hb⟩
        simp only [hbt, undBatch, Batch.ortho]
      obtain ⟨res, dtype, nd, f, d, hh, w, r0, c0, kw, kh, q1, q2, q3, q4, q5⟩ :=
        C82_between par camKw cf hp hkw hf c c5 ht x hx alpha ![t.1, t.2.1, t.2.2] opk (file s.path) (hsize s hm) _ hu (hdet k par c hk c5)
          (bt.argsFor s) hin m fs fs' fault' ⟨hi.height, hi.width, hi.block⟩ hopts (bt.out s) (Or.inr ⟨_, rfl⟩) h3
      refine ⟨f, q1, e, par, cf, t, opk, c1, c2, hp, c3, c4, c5, rfl, res, dtype, nd, d, hh, w, r0, c0, kw, kh,
        ⟨q2.resolution, q2.type, q2.nodata⟩, q3, ⟨q4.inside, q4.place, q4.all, q4.tight⟩, fun b hb1 hb2 => ⟨(q5 b hb1 hb2).1, ?_⟩⟩
      intro src hsrc imageAt point
      exact ⟨fun h => absurd h ht, fun _ hz' => (q5 b hb1 hb2).2 src hsrc hz'⟩
  obtain ⟨done, rest, rfl, g2, g3, g4⟩ := loop_good (und_faithful env x alpha args outDir fault) hgood hd (Inv.init env) h
  obtain rfl := g2.1 rfl
  rw [List.append_nil] at *
  refine ⟨fun q hq => g3 q ?_ (by simp), fun s hm => ?_⟩
  · intro hx
    obtain ⟨s, hm, rfl⟩ := List.mem_map.1 hx
    exact hq s hm rfl
  · obtain ⟨⟨c, p⟩, v, o, m, f, -, -, a3, a4, a5, e, par, cf, t, opk, b1, b2, b3, b4, b5, b6, b7, b8⟩ := g4 s hm
    cases b7
    refine ⟨e, par, cf, t, opk, v, c, o, m, f, b1, b2, b3, b4, b5, ?_, b6, a4, a5, b8⟩
    cases crs with
    | none => exact Or.inr ⟨rfl, by simpa using a3⟩
    | some u => exact Or.inl (by simpa using a3)

/-- C87: where the camera without distortion puts the centre of a pixel on a pixel of the undistorted image, there is no second interpolation: the pixel is the source image
where the documented camera sees its centre, or nodata. -/
theorem C87_on_pixel {x : ReadIm.Ext (Pix ℝ)} (hx : ExactAtPixels x) {alpha : ℝ} {cf : CamFile} {cam : CamObj} {T : V3} {opk : ℝ × ℝ × ℝ} {file : Image (Pix ℝ)}
    {o : Obj ℝ Arr} {a : Args ℝ} {m : Mem ℝ} {f : OrthoFile ℝ} (ht : cam.type ≠ .pinhole) (hsize : (file.w, file.h) = cam.imSize)
    (hs : file.h < 32767 ∧ file.w < 32767) (hu : UndOrthoOf x alpha cf cam T opk file o a m f) :
    ∃ (res : ℝ × ℝ) (dtype : String) (nd : Pix ℝ) (d : DemOut ℝ) (h w r0 c0 : ℕ), Choice o a res dtype nd ∧
      DemAt o.dem o.crsEqual (o.call a.demInterp res) m d ∧ Covers o a res d f h w r0 c0 ∧
      ∀ b r c z i j src, 1 ≤ b → b ≤ o.count → r < h → c < w → d.arr (r0 + r) (c0 + c) = some z → o.InView a res d (r0 + r) (c0 + c) →
        file.bands[b - 1]? = some src →
        let xy := f.transform.apply ((c : ℝ) + 1 / 2) ((r : ℝ) + 1 / 2)
        let X : V3 := ![xy.1, xy.2, z]
        FrameCam.camCoords (extrinsicR opk) T X 2 ≠ 0 →
        (cam.type = .fisheye → ¬ (FrameCam.camCoords (extrinsicR opk) T X 0 = 0 ∧ FrameCam.camCoords (extrinsicR opk) T X 1 = 0)) →
        i < file.h → j < file.w → undPixel (undistIntrinsic cam.imSize (x.undistort cam) alpha) T opk X = ((j : ℝ), (i : ℝ)) →
        ∃ u v, cf.pixel T opk X = (.val u, .val v) ∧
          (f.im.data b r c = (x.samp a.interp file.h file.w (fun i j => x.conv dtype (src i j)) (x.f32 u) (x.f32 v)).getD nd ∨ f.im.data b r c = nd) := by
  obtain ⟨res, dtype, nd, d, h, w, r0, c0, kw, kh, p1, p2, p3, p4⟩ := hu
  refine ⟨res, dtype, nd, d, h, w, r0, c0, p1, p2, p3, fun b r c z i j src hb1 hb2 hr hc hz hv hsrc => ?_⟩
  intro xy X hX hax hi hj hq
  obtain ⟨U, hU, k⟩ := ((p4 b hb1 hb2).2 src hsrc).2 ht hsize
  obtain ⟨u, v, e1, e2⟩ := hU X i j hX hax hq
  refine ⟨u, v, e1, ?_⟩
  have := (k r c z hr hc hz hv).1
  simp only at this
  rw [show undPixel (undistIntrinsic cam.imSize (x.undistort cam) alpha) T opk ![(f.transform.apply ((c : ℝ) + 1 / 2) ((r : ℝ) + 1 / 2)).1,
    (f.transform.apply ((c : ℝ) + 1 / 2) ((r : ℝ) + 1 / 2)).2, z] = ((j : ℝ), (i : ℝ)) from hq] at this
  simp only at this
  rwa [hx.whole j (by omega), hx.whole i (by omega), hx.pixel _ _ _ _ i j hi hj, Option.getD_some, e2] at this

/-! ## An example: two images of a Brown camera -/

noncomputable def undEnvCmd : FrameEnv (Dict String (Py ℝ)) CamObj (Option Pose) (ℝ × ℝ × ℝ) :=
  frameEnv id demoStem [("distort", .bool false), ("alpha", .int 1)] [("cam", ReadIm.demoParams)] demoExt

noncomputable def undSource (path : String) (crs : Option String) : Source (CamObj × Pose) Arr :=
  ⟨path, .ok (), crs, fun c _ => .ok (undObj c.1, ⟨fun _ _ _ => some 0, 1⟩)⟩

def undArgs : Args ℝ := { cmdArgs with interp := "nearest" }

theorem und_spec {f : String} (hf : f = "a.tif" ∨ f = "b.tif") : ∃ c, frameSpec undEnvCmd f = .ok c := by
  obtain ⟨cam, h1, -⟩ := C81_camera ReadIm.demoParams [("distort", .bool false), ("alpha", .int 1)] ReadIm.demoFile ReadIm.demo_params
    (fun n h => by simpa using h) (by simp [CamFile.focalPx, ReadIm.demoFile])
  have hc : undEnvCmd.create ReadIm.demoParams = .ok ⟨cam, none⟩ := by simp only [undEnvCmd, frameEnv, h1]
  rcases hf with rfl | rfl
  · have h2 : undEnvCmd.spec "a.tif" = .ok ⟨cam, some (![104, 197, 50], (0, 0, 0))⟩ := by
      have e1 : undEnvCmd.ext "a.tif" = .ok ⟨some "cam", some (104, 197, 50), some (0, 0, 0)⟩ := by
        simp [FrameEnv.ext, byName, undEnvCmd, frameEnv, demoExt, Dict.get?]
      have e2 : undEnvCmd.int (some "cam") = .ok ReadIm.demoParams := by
        simp [FrameEnv.int, undEnvCmd, frameEnv, Dict.get?]
      unfold FrameEnv.spec
      rw [e1, Res.ok_bind, e2, Res.ok_bind, hc]
      rfl
    exact ⟨_, by unfold frameSpec; rw [h2]; rfl⟩
  · have h2 : undEnvCmd.spec "b.tif" = .ok ⟨cam, some (![106, 196, 60], (0, 0, 1))⟩ := by
      have e1 : undEnvCmd.ext "b.tif" = .ok ⟨none, some (106, 196, 60), some (0, 0, 1)⟩ := by
        simp [FrameEnv.ext, byName, undEnvCmd, frameEnv, demoExt, Dict.get?, demoStem]
      have e2 : undEnvCmd.int none = .ok ReadIm.demoParams := by
        simp [FrameEnv.int, undEnvCmd, frameEnv]
      unfold FrameEnv.spec
      rw [e1, Res.ok_bind, e2, Res.ok_bind, hc]
      rfl
    exact ⟨_, by unfold frameSpec; rw [h2]; rfl⟩

/-- The hypotheses of `C87_undistorted` are met by a command for two images, whose orthos then meet the main hypothesis of `C87_on_pixel`. -/
example : ∃ fs', Loop (undBatch undEnvCmd undExt 1 undArgs "out" fun _ => none) .init none (fun _ => none)
      [undSource "a.tif" (some "EPSG:32735"), undSource "b.tif" none] fs' (.ok ()) ∧
    (∃ f, fs' "out/a_ORTHO.tif" = some f) ∧ ∃ f, fs' "out/b_ORTHO.tif" = some f := by
  set b := undBatch undEnvCmd undExt 1 undArgs "out" fun _ => none with hb
  set srcs := [undSource "a.tif" (some "EPSG:32735"), undSource "b.tif" none] with hsrcs
  have hobj : ∀ s ∈ srcs, ∀ c v o m, s.make c v = .ok (o, m) → o = undObj c.1 := by
    intro s hm c v o m ho
    simp only [hsrcs, List.mem_cons, List.not_mem_nil, or_false] at hm
    rcases hm with rfl | rfl <;> · simp only [undSource, Except.ok.injEq, Prod.mk.injEq] at ho; exact ho.1.symm
  have hinfo : ∀ s ∈ srcs, ∀ c v o m, s.make c v = .ok (o, m) → InfoOk o := by
    intro s hm c v o m ho
    obtain rfl := hobj s hm c v o m ho
    exact ⟨demo_infoOk.height, demo_infoOk.width, demo_infoOk.block⟩
  have hopts : OptsOk undArgs.opts := ⟨by simp [undArgs, cmdArgs, Dict.Ok], by intro k _; rfl⟩
  have hs : Sound b srcs := by
    refine ⟨fun i s => undExt_exact.border i s.h s.w s.band, fun c x y => ?_, hinfo, hopts, Or.inr (Or.inr (Or.inr rfl))⟩
    simp only [hb, undBatch]
    cases c.1.type <;> cases x <;> cases y <;> rfl
  have hd : (srcs.map b.out).Nodup := by
    show ["out/a_ORTHO.tif", "out/b_ORTHO.tif"].Nodup
    decide +kernel
  have hf := und_faithful undEnvCmd undExt 1 undArgs "out" fun _ => none
  obtain ⟨⟨fs', h⟩, -⟩ := C87_completes b _ _ hf srcs hs hd (fun _ => rfl) (by decide) .init (Inv.init _) none (fun _ => none) (by
    intro s hm
    have hs : ∃ p r, s = undSource p r ∧ (p = "a.tif" ∨ p = "b.tif") := by
      simp only [hsrcs, List.mem_cons, List.not_mem_nil, or_false] at hm
      rcases hm with rfl | rfl
      · exact ⟨_, _, rfl, Or.inl rfl⟩
      · exact ⟨_, _, rfl, Or.inr rfl⟩
    obtain ⟨p, r, rfl, hp⟩ := hs
    obtain ⟨c, hc⟩ := und_spec hp
    refine ⟨c, "EPSG:32735", undObj c.1, ⟨fun _ _ _ => some 0, 1⟩, (2, 2), "uint8", hc, rfl, rfl, rfl, Or.inr ⟨rfl, rfl⟩, Or.inr ⟨Or.inl rfl, rfl⟩,
      ⟨rfl, (by decide : "cubic" ∈ ["nearest", "average", "bilinear", "cubic", "lanczos"]),
        Or.inr ⟨by norm_num [undObj, Batch.ortho], by norm_num [undObj, Batch.ortho]⟩, ?_,
        ⟨(by decide : "gtiff" ∈ ["gtiff", "cog"]), by decide, Or.inr (Or.inl rfl)⟩⟩,
      Or.inr rfl, by norm_num [undObj], fun p => demo_small p⟩
    intro d hd
    obtain rfl : d = ⟨fun _ _ => some 0, 3, 4, ⟨2, 0, 100, 0, -2, 200⟩⟩ := by
      rcases hd with ⟨-, -, -, rfl⟩ | ⟨-, rfl⟩ <;> rfl
    exact ⟨0, by decide, 0, by decide, rfl, by simp [maskArgs]⟩)
  obtain ⟨-, k⟩ := C87_undistorted id demoStem [("distort", .bool false), ("alpha", .int 1)] (fun n h => by simpa using h) [("cam", ReadIm.demoParams)]
    (fun k par hk => by
      simp only [List.mem_singleton, Prod.mk.injEq] at hk
      obtain ⟨rfl, rfl⟩ := hk
      exact ⟨ReadIm.demoFile, ReadIm.demo_params, by simp [CamFile.focalPx, ReadIm.demoFile]⟩)
    demoExt undExt undExt_exact 1
    (fun k par c hk hc => by
      simp only [List.mem_singleton, Prod.mk.injEq] at hk
      obtain ⟨rfl, rfl⟩ := hk
      obtain ⟨cam, h1, h2, -⟩ := C81_camera ReadIm.demoParams [("distort", .bool false), ("alpha", .int 1)] ReadIm.demoFile ReadIm.demo_params
        (fun n h => by simpa using h) (by simp [CamFile.focalPx, ReadIm.demoFile])
      rw [hc] at h1
      cases h1
      have := Frame.C44_no_distortion c.imSize (by rw [h2]; decide) (by rw [h2]; decide) (10, 10) (9 / 2, 2) (by norm_num) 1
      rw [show undistIntrinsic c.imSize (undExt.undistort c) 1 = Frame.kMat (10, 10) (9 / 2, 2) from this, Frame.kMat_det]
      norm_num)
    undArgs (by decide) hopts "out" (fun _ => none) (fun _ => undFile) srcs hinfo
    (fun s hm c v o m ho => by
      obtain rfl := hobj s hm c v o m ho
      exact (undObj_is c.1).bands)
    (fun s _ => by constructor <;> decide) hd none (fun _ => none) fs' h
  refine ⟨fs', h, ?_, ?_⟩
  · obtain ⟨_, _, _, _, _, _, _, _, _, f, -, -, -, -, -, -, -, -, h4, -⟩ := k _ List.mem_cons_self
    exact ⟨f, h4⟩
  · obtain ⟨_, _, _, _, _, _, _, _, _, f, -, -, -, -, -, -, -, -, h4, -⟩ := k _ (List.mem_cons_of_mem _ List.mem_cons_self)
    exact ⟨f, h4⟩

end Verif.Command
