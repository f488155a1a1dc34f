import Verif.Ortho.Process
import Verif.Factory.Create

/-!
# C82: orthorectification with a camera made from parameter files
-/

set_option autoImplicit false

namespace Verif.OrthoProcess

open Verif.Ortho Verif.Dem Verif.Common Verif.Files Verif.ParamIO Verif.Create
open Verif.Frame hiding FrameType

/-- A float that may be NaN as an array element. -/
def pixOf : Fl ℝ → Pix ℝ
  | .val x => some x
  | .nan => none

/-- `FrameCamera.world_to_pixel` of one point (orthority/camera.py:816-841) as `Camera.remap` calls it (camera.py:372): a NaN coordinate gives a NaN
pixel. -/
noncomputable def frameW2p (c : CamObj) (xyz : V3) (opk : ℝ × ℝ × ℝ) (x y z : Pix ℝ) : Pix ℝ × Pix ℝ :=
  match x, y, z with
  | some x, some y, some z => (pixOf (c.worldToPixel xyz opk ![x, y, z]).1, pixOf (c.worldToPixel xyz opk ![x, y, z]).2)
  | _, _, _ => (none, none)

/-- C82: with a frame camera made of interior parameters, and exterior parameters `xyz` and `opk`, used with `distort=True`, each pixel of the ortho that is in
the camera's footprint and not level with the camera is the source image at the pixel where the documented camera sees the
pixel's centre at its elevation, or nodata if that is outside the source image; pixels outside the footprint are nodata. -/
theorem C82_from_files {Src : Type} (par camKw : Dict String (Py ℝ)) (cf : CamFile) (hpar : Params par cf)
    (hkw : ∀ n ∈ camKw.map Prod.fst, n = "distort" ∨ n = "alpha") (hf : cf.focalPx.1 ≠ 0 ∧ cf.focalPx.2 ≠ 0)
    (cam : CamObj) (hcam : createCamera par camKw = .ok cam) (xyz : V3) (opk : ℝ × ℝ × ℝ) (samp : String → Src → ℝ → ℝ → Option (Pix ℝ))
    (hsamp : ∀ i s, samp i s (-1) (-1) = none) (o : Obj ℝ Src)
    (ho : o.cam = fun i => ⟨frameW2p cam xyz opk, id, samp i⟩) (hd : o.distort = true) (a : Args ℝ) (m : Mem ℝ) (fs fs' : FS (OrthoFile ℝ))
    (fault : Option (Fault (OrthoFile ℝ))) (hi : InfoOk o) (hopts : OptsOk a.opts) (path : String) (hn : Names a.file path)
    (h : Process o a m fs fault fs' (.ok ())) :
    ∃ res dtype nd f d h w r0 c0, fs' = fs.put path (some f) ∧ Choice o a res dtype nd ∧
      DemAt o.dem o.crsEqual (o.call a.demInterp res) m d ∧ Covers o a res d f h w r0 c0 ∧
      ∀ b r c, 1 ≤ b → b ≤ o.count → r < h → c < w →
        (¬ o.InView a res d (r0 + r) (c0 + c) → f.im.data b r c = nd) ∧
        ∀ z, d.arr (r0 + r) (c0 + c) = some z → o.InView a res d (r0 + r) (c0 + c) →
          let xy := f.transform.apply ((c : ℝ) + 1 / 2) ((r : ℝ) + 1 / 2)
          let X : V3 := ![xy.1, xy.2, z]
          ((extrinsicR opk).transpose.mulVec (X - xyz)) 2 ≠ 0 →
            f.im.data b r c = (samp a.interp (o.read dtype a.interp b) ((pixOf (cf.pixel xyz opk X).1).getD (-1))
              ((pixOf (cf.pixel xyz opk X).2).getD (-1))).getD nd := by
  obtain ⟨cam', h1, -, hpix⟩ := C81_camera par camKw cf hpar hkw hf
  obtain rfl : cam' = cam := by
    rw [hcam] at h1
    exact (Except.ok.inj h1).symm
  have hnan : o.NanUnseen := by
    intro i dt b x y
    simp only [Obj.seen, ho, frameW2p, Option.getD_none, id]
    exact hsamp _ _
  obtain ⟨res, dtype, nd, f, d, hh, w, r0, c0, p1, p2, p3, p4, -, -, -, -, p9⟩ :=
    C82_pixels o a m fs fs' fault hi hnan hopts path hn (Or.inr (Or.inl hd)) h
  refine ⟨res, dtype, nd, f, d, hh, w, r0, c0, p1, p2, p3, p4, fun b r c hb1 hb2 hr hc => ⟨fun hv => ?_, fun z hz hv => ?_⟩⟩
  · rw [p9 b r c hb1 hb2 hr hc, Obj.ground, if_neg hv]
  · intro xy X hX
    rw [p9 b r c hb1 hb2 hr hc, Obj.ground, if_pos hv, hz]
    have hxy : d.t.apply (((c0 + c : ℕ) : ℝ) + 1 / 2) (((r0 + r : ℕ) : ℝ) + 1 / 2) = xy := by
      simp only [xy, p4.place]
      congr 1 <;> push_cast <;> ring
    rw [hxy]
    simp only [Obj.seen, ho, frameW2p, id]
    rw [hpix xyz opk X hX]

/-- An ortho of the demonstration camera over a DEM of 3 by 4 pixels at zero elevation, all of which is in its footprint. -/
noncomputable def frameObj (cam : CamObj) : Obj ℝ (List ℝ) where
  cam _ := ⟨frameW2p cam ![104, 197, 50] (0, 0, 0), id, fun src j i => if j < 0 ∨ i < 0 ∨ 9 < j ∨ 4 < i then none else some (src[0]?)⟩
  frame := true
  distort := true
  pinhole := true
  read _ _ _ := [7]
  srcErr := none
  srcH := 5
  srcW := 10
  count := 1
  srcDtype := "uint8"
  colors := ["gray"]
  dem := ⟨0, 3, 4, ⟨2, 0, 100, 0, -2, 200⟩⟩
  crsEqual := true
  gsd := 2
  crs := "EPSG:32735"
  orthoSize := (8, 6)
  reproject _ _ d := d
  poly _ _ := []
  fillPoly _ _ _ _ _ := true
  info := demoObj.info
  blank := ⟨fun _ _ _ => none, fun _ _ => false⟩

/-- The hypotheses of `C82_from_files` are met. -/
example : ∃ cam fs', createCamera demoParams [("distort", .bool true)] = .ok cam ∧
    Process (frameObj cam) ⟨.path "ortho.tif", none, "cubic", "cubic", false, some true, none, none, true, [], "gtiff", false⟩
      ⟨fun _ _ _ => some 0, 1⟩ (fun _ => none) none fs' (.ok ()) := by
  obtain ⟨cam, h1, -⟩ := C81_camera demoParams [("distort", .bool true)] demoFile demo_params
    (fun n h => Or.inl (List.mem_singleton.1 h)) demo_focal
  have hv : ∀ d, DemAt (frameObj cam).dem (frameObj cam).crsEqual ((frameObj cam).call "cubic" (2, 2)) ⟨fun _ _ _ => some 0, 1⟩ d →
      ∃ i < d.h, ∃ j < d.w, (frameObj cam).InView
        ⟨.path "ortho.tif", none, "cubic", "cubic", false, some true, none, none, true, [], "gtiff", false⟩ (2, 2) d i j := by
    intro d hd
    obtain rfl : d = ⟨fun _ _ => some 0, 3, 4, ⟨2, 0, 100, 0, -2, 200⟩⟩ := by
      rcases hd with ⟨-, -, -, rfl⟩ | ⟨-, rfl⟩ <;> rfl
    exact ⟨0, by decide, 0, by decide, rfl, by simp [maskArgs]⟩
  obtain ⟨⟨fs', h⟩, -⟩ := C82_completes (frameObj cam)
    ⟨.path "ortho.tif", none, "cubic", "cubic", false, some true, none, none, true, [], "gtiff", false⟩ ⟨fun _ _ _ => some 0, 1⟩ (fun _ => none)
    ⟨demo_infoOk.height, demo_infoOk.width, demo_infoOk.block⟩ ⟨by simp [Dict.Ok], by decide⟩ "ortho.tif" (2, 2) "uint8"
    (Or.inr ⟨rfl, rfl⟩) (Or.inr ⟨Or.inl rfl, rfl⟩)
    ⟨rfl, by decide, Or.inr ⟨by norm_num [frameObj], by norm_num [frameObj]⟩, hv, ⟨by decide, by decide, Or.inr (Or.inl rfl)⟩⟩
    ⟨Or.inl rfl, Or.inr rfl⟩ (by decide) ⟨by norm_num [frameObj], by norm_num [frameObj]⟩ (fun p => demo_small p)
  exact ⟨cam, fs', h1, h⟩

end Verif.OrthoProcess
