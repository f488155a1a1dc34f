import Verif.Ortho.Process

/-!
# C130: bands of an ortho do not depend on each other
-/

set_option autoImplicit false

namespace Verif.OrthoProcess.Bands

open Verif.Ortho Verif.Tiles Verif.Common Verif.Files Verif.Dem

variable {K : Type} [Field K] [LinearOrder K] [IsStrictOrderedRing K] [FloorRing K] {Src : Type}

/-! ## Theorems -/

/-- C130 (part): for cameras that do not dilate, a band of the ortho depends on its band of the source alone: when band `b'` of another source image, which
may have other bands and another number of them, reads as band `b` of this one, then band `b'` of its ortho is band `b` of the ortho of this one,
at the same place.  Missing for the full property: cameras that dilate, for which it is true with `per_band` (`C130_per_band_partial`) and not
without (`C130_dilated_fails`). -/
theorem C130_band_partial (o : Obj K Src) (read' : String → String → ℕ → Src) (count' : ℕ) (colors' : List String) (a : Args K) (b b' : ℕ)
    (hb : 1 ≤ b ∧ b ≤ o.count) (hb' : 1 ≤ b' ∧ b' ≤ count') (hsame : ∀ dt, read' dt a.interp b' = o.read dt a.interp b)
    (hmode : o.frame = false ∨ o.distort = true ∨ o.pinhole = true ∨ a.interp = "nearest")
    (hi : InfoOk o) (ho : OptsOk a.opts) (path : String) (hn : Names a.file path) (m : Mem K) (fs₁ fs₁' fs₂ fs₂' : FS (OrthoFile K))
    (h1 : Process o a m fs₁ none fs₁' (.ok ())) (h2 : Process { o with read := read', count := count', colors := colors' } a m fs₂ none fs₂' (.ok ())) :
    ∃ f f' dtype h w, fs₁' = fs₁.put path (some f) ∧ fs₂' = fs₂.put path (some f') ∧ ProfileOk f.profile a.driver dtype o.count h w ∧
      ProfileOk f'.profile a.driver dtype count' h w ∧ f'.transform = f.transform ∧ f'.crs = f.crs ∧ f'.ovw = f.ovw ∧
      ∀ r c, r < h → c < w → f'.im.data b' r c = f.im.data b r c := by
  cases h1 with
  | @done e p wm path₁ im₁ hp hop hf hin hr =>
    obtain rfl := openCheck_names hn hop
    cases h2 with
    | @done e' p' wm' path₂ im₂ hp' hop' hf' hin' hr' =>
      obtain rfl := openCheck_names hn hop'
      obtain ⟨-, -, hd, h4⟩ := prepare_ok hp
      obtain ⟨-, -, hd', h4'⟩ := prepare_ok hp'
      have hee : e' = e := by
        have : (processDem o.dem o.crsEqual (demCall o a) m).1 = .ok e' := hd'
        rw [hd] at this
        cases this
        rfl
      subst hee
      have hpo := profile_ok ho h4
      have hpo' := profile_ok ho h4'
      have hh : (o.info p).height = e'.h := hi.height _ _ hpo.height
      have hw : (o.info p).width = e'.w := hi.width _ _ hpo.width
      have hh' : (o.info p').height = e'.h := hi.height _ _ hpo'.height
      have hw' : (o.info p').width = e'.w := hi.width _ _ hpo'.width
      have hm : (remapIn o a e' p wm).mode.dilates (remapIn o a e' p wm).nodata = false := by
        simp only [remapIn, RemapMode.dilates]
        rcases hmode with hm | hm | hm | hm <;> simp [hm]
      have hm' : (remapIn { o with read := read', count := count', colors := colors' } a e' p' wm').mode.dilates
          (remapIn { o with read := read', count := count', colors := colors' } a e' p' wm').nodata = false := hm
      refine ⟨_, _, _, e'.h, e'.w, rfl, rfl, hpo, hpo', rfl, rfl, rfl, ?_⟩
      intro r c hrr hcc
      show im₂.data b' r c = im₁.data b r c
      rw [C02_ortho_pixels _ _ _ _ hm hr b r c hb.1 hb.2 (by show r < (o.info p).height; omega) (by show c < (o.info p).width; omega),
        C02_ortho_pixels _ _ _ _ hm' hr' b' r c hb'.1 hb'.2 (by show r < (o.info p').height; omega) (by show c < (o.info p').width; omega)]
      have hdt : dtypeOf { o with read := read', count := count', colors := colors' } a = dtypeOf o a := rfl
      have hnd : nodataFor { o with read := read', count := count', colors := colors' } a = nodataFor o a := rfl
      unfold orthoValue
      simp only [remapIn, hdt, hnd, hsame]

/-- C130 (part): with `per_band`, the same is true for all cameras, of source images with the same number of bands. -/
theorem C130_per_band_partial (o : Obj K Src) (read' : String → String → ℕ → Src) (a : Args K) (b : ℕ) (hb : 1 ≤ b ∧ b ≤ o.count)
    (hsame : ∀ dt, read' dt a.interp b = o.read dt a.interp b) (hper : a.perBand = true) (hi : InfoOk o) (ho : OptsOk a.opts) (path : String)
    (hn : Names a.file path) (m : Mem K) (fs₁ fs₁' fs₂ fs₂' : FS (OrthoFile K)) (h1 : Process o a m fs₁ none fs₁' (.ok ()))
    (h2 : Process { o with read := read' } a m fs₂ none fs₂' (.ok ())) :
    ∃ f im dtype h w, fs₁' = fs₁.put path (some f) ∧ fs₂' = fs₂.put path (some { f with im := im }) ∧ ProfileOk f.profile a.driver dtype o.count h w ∧
      ∀ r c, r < h → c < w → im.data b r c = f.im.data b r c := by
  cases h1 with
  | @done e p wm path₁ im₁ hp hop hf hin hr =>
    obtain rfl := openCheck_names hn hop
    cases h2 with
    | @done e' p' wm' path₂ im₂ hp' hop' hf' hin' hr' =>
      obtain rfl := openCheck_names hn hop'
      have hprep : prepare { o with read := read' } a m = prepare o a m := rfl
      rw [hprep, hp] at hp'
      cases hp'
      obtain ⟨-, -, -, h4⟩ := prepare_ok hp
      have hpo := profile_ok ho h4
      have hh : (o.info p).height = e.h := hi.height _ _ hpo.height
      have hw : (o.info p).width = e.w := hi.width _ _ hpo.width
      refine ⟨_, im₂, _, e.h, e.w, rfl, rfl, hpo, ?_⟩
      intro r c hrr hcc
      rw [hper] at hr hr'
      obtain ⟨w₀, ws, hwin, hv⟩ := C02_tile_values _ _ _ _ hr
      obtain ⟨w₀', ws', hwin', hv'⟩ := C02_tile_values _ _ _ _ hr'
      have hout : (remapIn { o with read := read' } a e p wm).out = (remapIn o a e p wm).out := rfl
      rw [hout, hwin] at hwin'
      cases hwin'
      have ht := C01_tiles_partition _ _ _ hwin
      obtain ⟨w, hwm, hwrc⟩ : ∃ w ∈ w₀ :: ws, w.Has r c := by
        have h1 := ht.once r (by show r < (o.info p).height; omega) c (by show c < (o.info p).width; omega)
        obtain ⟨w, hw1, hw2⟩ := List.countP_pos_iff.1 (by omega : 0 < (w₀ :: ws).countP fun w => decide (w.Has r c))
        exact ⟨w, hw1, by simpa using hw2⟩
      obtain ⟨t, e1, e2⟩ := hv b hb.1 hb.2 w hwm
      obtain ⟨t', e1', e2'⟩ := hv' b hb.1 hb.2 w hwm
      have htile : computeTile (remapIn { o with read := read' } a e p wm) w₀ [b] w = computeTile (remapIn o a e p wm) w₀ [b] w := by
        have hdt : dtypeOf { o with read := read' } a = dtypeOf o a := rfl
        have hnd : nodataFor { o with read := read' } a = nodataFor o a := rfl
        unfold computeTile
        simp only [remapIn, List.map_cons, List.map_nil, hdt, hnd, hsame]
      simp only [if_true] at e1 e1' e2 e2'
      rw [htile, e1] at e1'
      cases e1'
      show im₂.data b r c = im₁.data b r c
      rw [e2 r c hwrc, e2' r c hwrc]

/-- C130 fails for cameras that dilate, without `per_band`: two images of two bands have the same first band, and the first bands of their orthos differ. -/
theorem C130_dilated_fails : ∃ p q : RemapIn ℚ (List ℚ), ∃ im : OrthoIm ℚ, q = { p with readBand := q.readBand } ∧ q.readBand 1 = p.readBand 1 ∧
    (∃ x, Remap p false im (.ok x)) ∧ (∃ y, Remap q false im (.ok y)) ∧
    ∀ x y, Remap p false im (.ok x) → Remap q false im (.ok y) → x.data 1 0 1 = some 7 ∧ y.data 1 0 1 = some 0 := by
  refine ⟨demo [[0, 7], [5, 6]] 2 2 dilateMode, demo [[0, 7], [0, 6]] 2 2 dilateMode, ⟨fun _ _ _ => none, fun _ _ => false⟩, rfl, rfl, ?_, ?_, ?_⟩
  · exact (C02_completes _ false _ (by decide) (by decide) (by decide) (by decide) (by decide)).1
  · exact (C02_completes _ false _ (by decide) (by decide) (by decide) (by decide) (by decide)).1
  · intro x y hx hy
    constructor
    · exact demo_value hx (w₀ := ⟨0, 0, 2, 1⟩) (ws := []) (w := ⟨0, 0, 2, 1⟩) rfl (by simp) (by decide)
        (by decide) _ (by decide +kernel)
    · exact demo_value hy (w₀ := ⟨0, 0, 2, 1⟩) (ws := []) (w := ⟨0, 0, 2, 1⟩) rfl (by simp) (by decide)
        (by decide) _ (by decide +kernel)

/-! ## Examples -/

/-- The example of C82, with a source that has its two bands the other way around, and a third one. -/
def three : Obj ℚ (List ℚ) :=
  { demoObj with read := fun _ _ b => [[51, 61, 71, 81], [50, 60, 70, 80], [9, 9, 9, 9]].getD (b - 1) [], count := 3, colors := ["green", "red", "alpha"] }

/-- `C130_band_partial` for it: its second band is the first of the example, and both runs complete. -/
example : ∃ (fs₁' fs₂' : FS (OrthoFile ℚ)) (f f' : OrthoFile ℚ) (dtype : String) (h w : ℕ), Process demoObj demoArgs demoMem (fun _ => none) none fs₁' (.ok ()) ∧
    Process three demoArgs demoMem (fun _ => none) none fs₂' (.ok ()) ∧ fs₁' "ortho.tif" = some f ∧ fs₂' "ortho.tif" = some f' ∧
    ProfileOk f.profile "gtiff" dtype 2 h w ∧ ∀ r c, r < h → c < w → f'.im.data 2 r c = f.im.data 1 r c := by
  have ho : OptsOk demoArgs.opts := ⟨by simp [Dict.Ok, demoArgs], by decide⟩
  obtain ⟨⟨fs₁', h1⟩, -⟩ := C82_completes demoObj demoArgs demoMem (fun _ => none) demo_infoOk ho "ortho.tif" (2, 2) "uint8" (Or.inr ⟨rfl, rfl⟩)
    (Or.inr ⟨Or.inl rfl, rfl⟩) demo_ready ⟨Or.inl rfl, Or.inr rfl⟩ (by decide) (by decide) demo_small
  obtain ⟨⟨fs₂', h2⟩, -⟩ := C82_completes three demoArgs demoMem (fun _ => none) ⟨demo_infoOk.height, demo_infoOk.width, demo_infoOk.block⟩ ho "ortho.tif"
    (2, 2) "uint8" (Or.inr ⟨rfl, rfl⟩) (Or.inr ⟨Or.inl rfl, rfl⟩) ⟨rfl, by decide, demo_ready.3, demo_ready.4, demo_ready.5⟩ ⟨Or.inl rfl, Or.inr rfl⟩
    (by decide) (by decide) demo_small
  obtain ⟨f, f', dtype, h, w, e1, e2, e3, -, -, -, -, e4⟩ := C130_band_partial demoObj three.read 3 three.colors demoArgs 1 2 (by decide) (by decide) (fun _ => rfl)
    (Or.inr (Or.inl rfl)) demo_infoOk ho "ortho.tif" (Or.inl rfl) demoMem (fun _ => none) fs₁' (fun _ => none) fs₂' h1 h2
  exact ⟨fs₁', fs₂', f, f', dtype, h, w, h1, h2, by rw [e1]; simp [FS.put], by rw [e2]; simp [FS.put], e3, e4⟩

/-- The example of C82 with `distort=False`. -/
def dilating : Obj ℚ (List ℚ) := { demoObj with distort := false }

/-- `C130_per_band_partial` for it, and another second band; both runs complete. -/
example : ∃ (fs₁' fs₂' : FS (OrthoFile ℚ)) (f : OrthoFile ℚ) (im : OrthoIm ℚ) (dtype : String) (h w : ℕ),
    Process dilating { demoArgs with perBand := true } demoMem (fun _ => none) none fs₁' (.ok ()) ∧
    Process { dilating with read := fun _ _ b => [[50, 60, 70, 80], [0, 0, 0, 81]].getD (b - 1) [] } { demoArgs with perBand := true } demoMem (fun _ => none) none
      fs₂' (.ok ()) ∧ fs₁' "ortho.tif" = some f ∧ fs₂' "ortho.tif" = some { f with im := im } ∧
    ProfileOk f.profile "gtiff" dtype 2 h w ∧ ∀ r c, r < h → c < w → im.data 1 r c = f.im.data 1 r c := by
  have ho : OptsOk ({ demoArgs with perBand := true } : Args ℚ).opts := ⟨by simp [Dict.Ok, demoArgs], by decide⟩
  obtain ⟨⟨fs₁', h1⟩, -⟩ := C82_completes dilating { demoArgs with perBand := true } demoMem (fun _ => none)
    ⟨demo_infoOk.height, demo_infoOk.width, demo_infoOk.block⟩ ho "ortho.tif" (2, 2) "uint8" (Or.inr ⟨rfl, rfl⟩)
    (Or.inr ⟨Or.inl rfl, rfl⟩) ⟨rfl, by decide, demo_ready.3, demo_ready.4, demo_ready.5⟩ ⟨Or.inl rfl, Or.inr rfl⟩ (by decide) (by decide) demo_small
  obtain ⟨⟨fs₂', h2⟩, -⟩ := C82_completes { dilating with read := fun _ _ b => [[50, 60, 70, 80], [0, 0, 0, 81]].getD (b - 1) [] }
    { demoArgs with perBand := true } demoMem (fun _ => none)
    ⟨demo_infoOk.height, demo_infoOk.width, demo_infoOk.block⟩ ho "ortho.tif" (2, 2) "uint8" (Or.inr ⟨rfl, rfl⟩)
    (Or.inr ⟨Or.inl rfl, rfl⟩) ⟨rfl, by decide, demo_ready.3, demo_ready.4, demo_ready.5⟩ ⟨Or.inl rfl, Or.inr rfl⟩ (by decide) (by decide) demo_small
  obtain ⟨f, im, dtype, h, w, e1, e2, e3, e4⟩ := C130_per_band_partial dilating
    (fun _ _ b => [[50, 60, 70, 80], [0, 0, 0, 81]].getD (b - 1) []) { demoArgs with perBand := true } 1 (by decide) (fun _ => rfl) rfl
    ⟨demo_infoOk.height, demo_infoOk.width, demo_infoOk.block⟩ ho "ortho.tif" (Or.inl rfl) demoMem (fun _ => none) fs₁' (fun _ => none) fs₂' h1 h2
  exact ⟨fs₁', fs₂', f, im, dtype, h, w, h1, h2, by rw [e1]; simp [FS.put], by rw [e2]; simp [FS.put], e3, e4⟩

end Verif.OrthoProcess.Bands
