import Verif.Ortho.Process

/-!
# C85: ortho files that `process` does not finish
-/

set_option autoImplicit false
set_option linter.unusedSectionVars false

namespace Verif.OrthoProcess

open Verif.Dem Verif.Common Verif.Ortho Verif.Tiles Verif.Files

variable {K : Type} [Field K] [LinearOrder K] [IsStrictOrderedRing K] [FloorRing K] {Src : Type}

/-- File systems at some moment of `Ortho.process` after the ortho image is made, orthority/ortho.py:608-628: while `_remap` runs or after it
stopped (any worker may have raised), and while overviews are built, when `ovw` are any levels. -/
inductive Unfinished (o : Obj K Src) (a : Args K) (m : Mem K) (fs : FS (OrthoFile K)) : FS (OrthoFile K) → Prop
  | remap {d : DemOut K} {p : Profile} {wm : Bool} {path : String} {im : OrthoIm K} : prepare o a m = .ok (d, p, wm) →
      openCheck fs "w" "wb" a.overwrite a.file = .ok path → Moment (remapIn o a d p wm) a.perBand o.blank im →
      Unfinished o a m fs (fs.put path (some { created o d p with im := im }))
  | overviews {d : DemOut K} {p : Profile} {wm : Bool} {path : String} {im : OrthoIm K} (ovw : List ℕ) : prepare o a m = .ok (d, p, wm) →
      openCheck fs "w" "wb" a.overwrite a.file = .ok path → FRemap (remapIn o a d p wm) a.perBand o.blank (.ok ()) im →
      Unfinished o a m fs (fs.put path (some { created o d p with im := im, ovw := ovw }))

theorem unfinished_cases {o : Obj K Src} {a : Args K} {m : Mem K} {fs fs' : FS (OrthoFile K)} {path : String} (hn : Names a.file path)
    (h : Unfinished o a m fs fs') : ∃ e p wm im ovw, prepare o a m = .ok (e, p, wm) ∧ Moment (remapIn o a e p wm) a.perBand o.blank im ∧
      fs' = fs.put path (some { created o e p with im := im, ovw := ovw }) := by
  cases h with
  | remap hp hc hm =>
    obtain rfl := openCheck_names hn hc
    exact ⟨_, _, _, _, _, hp, hm, rfl⟩
  | overviews ovw hp hc hm =>
    obtain rfl := openCheck_names hn hc
    exact ⟨_, _, _, _, _, hp, C85_left _ _ _ _ _ hm, rfl⟩

/-- C85: when `process` raises and GDAL could open the output, it has changed nothing, or left the file as it is at some moment. -/
theorem C85_process_left (o : Obj K Src) (a : Args K) (m : Mem K) (fs fs' : FS (OrthoFile K)) (e : PyErr)
    (h : Process o a m fs none fs' (.error e)) : fs' = fs ∨ Unfinished o a m fs fs' := by
  cases h with
  | before => exact Or.inl rfl
  | refused => exact Or.inl rfl
  | fault _ _ h => cases h
  | interp hp hc _ _ => exact Or.inr (.remap (im := o.blank) hp hc .before)
  | stopped left hp hc _ _ _ hm => exact Or.inr (.remap hp hc hm)

/-- C85: the file of a `process` that is stopped at any moment, whichever workers raised, is an image in the place of the finished image,
with its bands, data type, CRS and colours.  For cameras that do not dilate, each pixel of each band is blank or the source where the
camera sees the pixel (nodata where it does not).  No other file is changed. -/
theorem C85_process (o : Obj K Src) (a : Args K) (m : Mem K) (fs fs' : FS (OrthoFile K)) (hi : InfoOk o) (hnan : o.NanUnseen)
    (ho : OptsOk a.opts) (path : String) (hn : Names a.file path)
    (hmode : o.frame = false ∨ o.distort = true ∨ o.pinhole = true ∨ a.interp = "nearest") (h : Unfinished o a m fs fs') :
    ∃ res dtype nd f d h w r0 c0, fs' = fs.put path (some f) ∧ Choice o a res dtype nd ∧
      DemAt o.dem o.crsEqual (o.call a.demInterp res) m d ∧ Covers o a res d f h w r0 c0 ∧
      ProfileOk f.profile a.driver dtype o.count h w ∧ f.crs = o.crs ∧ f.colors = o.colors ∧
      ∀ b r c, r < h → c < w →
        f.im.data b r c = o.blank.data b r c ∨ f.im.data b r c = o.ground a res dtype nd d b (r0 + r) (c0 + c) := by
  classical
  obtain ⟨e, p, wm, im, ovw, hp, hm, rfl⟩ := unfinished_cases hn h
  obtain ⟨-, -, h3, h4⟩ := prepare_ok hp
  obtain ⟨d, r0, c0, hd, b1, b2, b3, b4, b5, b6⟩ := C64_dem _ _ _ _ _ h3
  have hpo := profile_ok ho h4
  have hcov : Covers o a (resolutionOf o a) d { created o e p with im := im, ovw := ovw } e.h e.w r0 c0 := ⟨⟨b1, b2⟩, b4, b5, b6⟩
  refine ⟨resolutionOf o a, dtypeOf o a, nodataFor o a, _, d, e.h, e.w, r0, c0, rfl, choice h4, hd, hcov, hpo, rfl, rfl, ?_⟩
  intro b r c hr hc
  have hmd : (remapIn o a e p wm).mode.dilates (remapIn o a e p wm).nodata = false := by
    simp only [remapIn, RemapMode.dilates]
    rcases hmode with hm | hm | hm | hm <;> simp [hm]
  have h1 : (o.info p).height = e.h := hi.height _ _ hpo.height
  have h2 : (o.info p).width = e.w := hi.width _ _ hpo.width
  refine (C85_values _ _ _ _ hmd hm b r c (by show r < (o.info p).height; omega) (by show c < (o.info p).width; omega)).imp id fun h => ?_
  rw [show ({ created o e p with im := im, ovw := ovw } : OrthoFile K).im = im from rfl, h]
  refine orthoValue_ground (f := { created o e p with im := im, ovw := ovw }) hnan hcov rfl ?_ b r c hr hc
  intro i j hi hj
  have := b3 i hi j hj
  constructor
  · rw [this]
    by_cases hk : Kept (maskArgs (demCall o a) d) (r0 + i) (c0 + j)
    · rw [if_pos hk]
      exact ⟨fun h0 => absurd h0 hk.2, fun h0 => absurd hk h0⟩
    · rw [if_neg hk]
      exact ⟨fun _ => hk, fun _ => rfl⟩
  · intro hk
    rw [this]
    exact if_pos hk

/-- C85: for all cameras, each pixel of each band is blank or as it is in the file of a run that completes. -/
theorem C85_process_pixels (o : Obj K Src) (a : Args K) (m : Mem K) (fs fs' fs'' : FS (OrthoFile K)) (hi : InfoOk o)
    (ho : OptsOk a.opts) (path : String) (hn : Names a.file path) (h : Unfinished o a m fs fs')
    (hF : Process o a m fs none fs'' (.ok ())) : ∃ f g height width, fs' = fs.put path (some f) ∧ fs'' = fs.put path (some g) ∧
      ProfileOk g.profile a.driver (dtypeOf o a) o.count height width ∧ f.profile = g.profile ∧ f.crs = g.crs ∧
      f.transform = g.transform ∧ f.colors = g.colors ∧ ∀ b r c, 1 ≤ b → b ≤ o.count → r < height → c < width →
        f.im.data b r c = o.blank.data b r c ∨ f.im.data b r c = g.im.data b r c := by
  obtain ⟨e, p, wm, im, ovw, hp, hm, rfl⟩ := unfinished_cases hn h
  obtain ⟨-, -, -, h4⟩ := prepare_ok hp
  have hpo := profile_ok ho h4
  cases hF with
  | done hp' hc' _ _ hr =>
    obtain rfl := openCheck_names hn hc'
    rw [hp] at hp'
    cases hp'
    refine ⟨_, _, e.h, e.w, rfl, rfl, hpo, rfl, rfl, rfl, rfl, ?_⟩
    intro b r c hb1 hb2 hr' hc
    have h1 : (o.info p).height = e.h := hi.height _ _ hpo.height
    have h2 : (o.info p).width = e.w := hi.width _ _ hpo.width
    exact C85_pixels _ _ _ _ _ hm hr b r c hb1 hb2 (by show r < (o.info p).height; omega) (by show c < (o.info p).width; omega)

/-- The example of C82 can be stopped with the new file still blank. -/
example : ∃ fs', Unfinished demoObj demoArgs demoMem (fun _ => none) fs' ∧ fs' "ortho.tif" ≠ none := by
  obtain ⟨d, p, wm, hp⟩ := prepare_ready (Or.inr ⟨rfl, rfl⟩) (Or.inr ⟨Or.inl rfl, rfl⟩) demo_ready
  have hc := openCheck_canOpen (fs := fun _ => none) (path := "ortho.tif") (file := demoArgs.file) (overwrite := demoArgs.overwrite)
    (F := OrthoFile ℚ) ⟨Or.inl rfl, Or.inr rfl⟩
  refine ⟨_, .remap hp hc .before, ?_⟩
  simp [FS.put]

end Verif.OrthoProcess
