import Verif.PanSharp.Process

/-!
# C85: pan-sharpened files that `process` does not finish
-/

set_option autoImplicit false
set_option linter.unusedSectionVars false

namespace Verif.PanProcess

open Verif.PanSharp Verif.Common Verif.Tiles Verif.Files
open Verif.OrthoProcess (Names OptsOk ProfileOk CanOpen profile_ok openCheck_names openCheck_canOpen)

variable {C : Type}

/-- File systems at some moment of `PanSharpen.process` after the output is made, orthority/pan_sharp.py:621-670: before tiles are written,
while they are or after that stopped (any worker may have raised), and while overviews are built, when `ovw` are any levels. -/
inductive Unfinished (o : Obj C) (a : Args) (fs : FS (PanFile C)) : FS (PanFile C) → Prop
  | made {x : Plan} {path : String} : prepare o a = .ok x → openCheck fs "w" "wb" a.overwrite a.file = .ok path →
      Unfinished o a fs (fs.put path (some (created o x)))
  | tiles {x : Plan} {path : String} {s : (ℕ → ℝ) × (ℕ → ℕ → Fl ℝ)} {params : Params (Fl ℝ)} {im : ℕ → ℕ → OutCell ℝ} :
      prepare o a = .ok x → openCheck fs "w" "wb" a.overwrite a.file = .ok path → Stats o a x.ix (.ok s) →
      paramsOf o x.ix.length s x.w = .ok params → SMoment (sharpIn o a x params) o.blank im →
      Unfinished o a fs (fs.put path (some { created o x with im := im }))
  | overviews {x : Plan} {path : String} {s : (ℕ → ℝ) × (ℕ → ℕ → Fl ℝ)} {params : Params (Fl ℝ)} {im : ℕ → ℕ → OutCell ℝ} (ovw : List ℕ) :
      prepare o a = .ok x → openCheck fs "w" "wb" a.overwrite a.file = .ok path → Stats o a x.ix (.ok s) →
      paramsOf o x.ix.length s x.w = .ok params → FSharpened (sharpIn o a x params) o.blank (.ok ()) im →
      Unfinished o a fs (fs.put path (some { created o x with im := im, ovw := ovw }))

/-- C85: when `process` raises and GDAL could open the output, it has changed nothing, or left the file as it is at some moment. -/
theorem C85_sharp_process_left (o : Obj C) (a : Args) (fs fs' : FS (PanFile C)) (e : PyErr) (h : Process o a fs none fs' (.error e)) :
    fs' = fs ∨ Unfinished o a fs fs' := by
  cases h with
  | before => exact Or.inl rfl
  | refused => exact Or.inl rfl
  | fault _ _ h => cases h
  | stats hp hc _ _ => exact Or.inr (.made hp hc)
  | params hp hc _ _ _ => exact Or.inr (.made hp hc)
  | stopped left hp hc _ hs h4 _ hm => exact Or.inr (.tiles hp hc hs h4 hm)

/-- C85: the file of a `process` that is stopped at any moment, whichever workers raised, has profile, CRS, transform and colours of that of a
run that completes, each pixel of each band is blank or as it is there, and the mask of a pixel is blank or as it is there, and then so are
all bands.  No other file is changed. -/
theorem C85_sharp_process (o : Obj C) (a : Args) (fs fs' fs'' : FS (PanFile C)) (hi : InfoOk o) (ho : OptsOk a.opts) (path : String)
    (hn : Names a.file path) (h : Unfinished o a fs fs') (hF : Process o a fs none fs'' (.ok ())) :
    ∃ f g, fs' = fs.put path (some f) ∧ fs'' = fs.put path (some g) ∧ f.profile = g.profile ∧ f.crs = g.crs ∧
      f.transform = g.transform ∧ f.colors = g.colors ∧ ∀ r < o.grids.panWin.height.toNat, ∀ c < o.grids.panWin.width.toNat,
        (∀ b, (f.im r c).data b = (o.blank r c).data b ∨ (f.im r c).data b = (g.im r c).data b) ∧
        ((f.im r c).valid = (o.blank r c).valid ∨
          ((f.im r c).valid = (g.im r c).valid ∧ ∀ b, (f.im r c).data b = (g.im r c).data b)) := by
  obtain ⟨x, s, params, img, h1, h2, h3, h4, h5⟩ := process_ok hn hF
  have hpo := profile_ok ho (prepare_ok h1).2.2.2.2
  have key : ∀ {path' : String} {x' : Plan} {s' : (ℕ → ℝ) × (ℕ → ℕ → Fl ℝ)} {params' : Params (Fl ℝ)} {im : ℕ → ℕ → OutCell ℝ} {ovw : List ℕ},
      prepare o a = .ok x' → openCheck fs "w" "wb" a.overwrite a.file = .ok path' → Stats o a x'.ix (.ok s') →
      paramsOf o x'.ix.length s' x'.w = .ok params' → SMoment (sharpIn o a x' params') o.blank im →
      ∃ f g, fs.put path' (some { created o x' with im := im, ovw := ovw }) = fs.put path (some f) ∧ fs'' = fs.put path (some g) ∧
      f.profile = g.profile ∧ f.crs = g.crs ∧
      f.transform = g.transform ∧ f.colors = g.colors ∧ ∀ r < o.grids.panWin.height.toNat, ∀ c < o.grids.panWin.width.toNat,
        (∀ b, (f.im r c).data b = (o.blank r c).data b ∨ (f.im r c).data b = (g.im r c).data b) ∧
        ((f.im r c).valid = (o.blank r c).valid ∨
          ((f.im r c).valid = (g.im r c).valid ∧ ∀ b, (f.im r c).data b = (g.im r c).data b)) := by
    intro path' x' s' params' im ovw h1' hc h2' h3' hm
    obtain rfl := openCheck_names hn hc
    rw [h1] at h1'
    obtain rfl := Except.ok.inj h1'
    have hs : s = s' := by
      cases h2 with
      | ok hw ho _ => cases h2' with
        | ok hw' ho' _ => exact C47_order_independent _ _ _ _ _ _ _ _ hw hw' ho ho'
    subst hs
    rw [h3] at h3'
    obtain rfl := Except.ok.inj h3'
    refine ⟨_, _, rfl, h5, rfl, rfl, rfl, rfl, ?_⟩
    intro r hr c hc
    have hr' : r < (sharpIn o a x params).out.height := by show r < (o.info x.p).height; rw [hi.height _ _ hpo.height]; exact hr
    have hc' : c < (sharpIn o a x params).out.width := by show c < (o.info x.p).width; rw [hi.width _ _ hpo.width]; exact hc
    obtain ⟨k1, k2⟩ := C85_sharp_pixels _ _ _ hm r hr' c hc'
    obtain ⟨k3, k4, -⟩ := C52_pixels _ _ _ h4 r hr' c hc'
    have k3' : ∀ b, (img r c).data b = finishedValue (sharpIn o a x params) b r c := k3
    simp only [k3']
    refine ⟨k1, ?_⟩
    by_cases hw : (sharpIn o a x params).writeMask = true
    · rw [if_pos hw] at k4
      rw [k4]
      exact k2.imp id fun h => h.2
    · rw [if_neg hw] at k4
      rw [k4]
      rcases k2 with k2 | ⟨k2, -⟩
      · exact Or.inl k2
      · exact absurd k2 hw
  cases h with
  | made hp hc =>
    have hx := hp
    rw [h1] at hx
    obtain rfl := Except.ok.inj hx
    exact key hp hc h2 h3 .before
  | tiles hp hc hs h4 hm => exact key hp hc hs h4 hm
  | overviews ovw hp hc hs h4 hm => exact key hp hc hs h4 (C85_sharp_left _ _ _ _ hm)

/-- The example of C83: a run that completes, and a moment at which its file is still blank. -/
example : ∃ (o : Obj ℕ) (fs' fs'' : FS (PanFile ℕ)), Process o (demoArgs 1 (some [1, 2])) (fun _ => none) none fs'' (.ok ()) ∧
    Unfinished o (demoArgs 1 (some [1, 2])) (fun _ => none) fs' ∧ ∃ f, fs' "sharp.tif" = some f ∧ f.im = o.blank := by
  obtain ⟨ls, hls⟩ := demo_lstsq
  let t : Affine ℝ := ⟨1, 0, 0, 0, -1, 0⟩
  let pan : Raster ℝ ℕ := ⟨some 32735, t, 4, 4⟩
  let g : Grids ℝ := ⟨t, t, ⟨0, 0, 4, 4⟩, ⟨0, 0, 2, 2⟩, t, t⟩
  have hready := demo_ready ls pan g 1 (by decide) [1, 2] (by decide) (by decide)
  have hgood := demo_good ls pan g rfl (some [1, 2])
  have hopen : CanOpen (demoArgs 1 (some [1, 2])).file (demoArgs 1 (some [1, 2])).overwrite (fun _ => none : FS (PanFile ℕ)) "sharp.tif" :=
    ⟨.inl rfl, .inl rfl⟩
  obtain ⟨⟨fs'', hp⟩, -⟩ := C83_completes (demoObj ls pan g) _ _ (demo_info ls pan g) "sharp.tif" [1, 2] none "float64" hready hopen
    (fun _ => rfl) (fun _ => rfl) hgood.two (.inl (by decide))
  obtain ⟨x, hx, -⟩ := prepare_ready hready
  exact ⟨demoObj ls pan g, _, fs'', hp, .made hx (openCheck_canOpen hopen), created (demoObj ls pan g) x, by simp [FS.put], rfl⟩

end Verif.PanProcess
