import Verif.Ortho.Radiometry

/-!
# C129: nearest interpolation makes no new values

Orthos of class maps, and of images whose bands are compared with each other, are made with `nearest`.
-/

set_option autoImplicit false

namespace Verif.OrthoProcess.Nearest

open Verif.Ortho Verif.Common Verif.Files Verif.Dem Verif.OrthoProcess.Interpolate

variable {K : Type} [Field K] [LinearOrder K]

/-! ## Specification -/

/-- `INTER_NEAREST` copies a pixel of the band, and which one it is does not depend on values: OpenCV's `remapNearest`. -/
def Copies (remap : CvRemap K) : Prop :=
  ∃ pick : ℕ → ℕ → K → K → Option (ℕ × ℕ), (∀ h w j i q, pick h w j i = some q → q.1 < h ∧ q.2 < w) ∧
    ∀ s j i, remap .nearest s j i = (pick s.h s.w j i).map fun q => s.get q.1 q.2

variable [IsStrictOrderedRing K] [FloorRing K]

/-! ## Theorems -/

/-- C129: with `nearest`, each pixel of the ortho is a pixel of the source image: there is a row and column of the source, the same for all bands, whose
values are those of the ortho pixel; or else all bands of the ortho pixel have nodata.  This is for all data types, and for images that
are undistorted too. -/
theorem C129_nearest (o : Obj K (Img K)) (remap : CvRemap K) (hc : Copies remap) (maps : Option (ℕ → ℕ → K × K)) (nodata : String → Pix K)
    (raw : String → ℕ → Img K) (hu : Uses o remap maps nodata raw) (a : Args K) (hin : a.interp = "nearest") (srcH srcW : ℕ)
    (hsz : ∀ dt b, (raw dt b).h = srcH ∧ (raw dt b).w = srcW) (hi : InfoOk o) (ho : OptsOk a.opts) (path : String) (hn : Names a.file path)
    (hnd : ∀ dtype nd, Choice o a (a.resolution.getD (o.gsd, o.gsd)) dtype nd → nodata dtype = nd)
    (m : Mem K) (fs fs' : FS (OrthoFile K)) (fault : Option (Fault (OrthoFile K))) (h : Process o a m fs fault fs' (.ok ())) :
    ∃ dtype nd f h w, fs' = fs.put path (some f) ∧ Choice o a (a.resolution.getD (o.gsd, o.gsd)) dtype nd ∧
      ProfileOk f.profile a.driver dtype o.count h w ∧
      ∀ r c, r < h → c < w → (∀ b, 1 ≤ b → b ≤ o.count → f.im.data b r c = nd) ∨
        ∃ r' < srcH, ∃ c' < srcW, ∀ b, 1 ≤ b → b ≤ o.count → f.im.data b r c = (raw dtype b).get r' c' := by
  cases h with
  | @done e p wm path₁ im₁ hp hop hf hin' hr =>
    obtain rfl := openCheck_names hn hop
    obtain ⟨-, -, -, h4⟩ := prepare_ok hp
    have hpo := profile_ok ho h4
    have hch : Choice o a (a.resolution.getD (o.gsd, o.gsd)) (dtypeOf o a) (nodataFor o a) := choice h4
    have hh : (o.info p).height = e.h := hi.height _ _ hpo.height
    have hw : (o.info p).width = e.w := hi.width _ _ hpo.width
    have hm : (remapIn o a e p wm).mode.dilates (remapIn o a e p wm).nodata = false := by
      simp [remapIn, RemapMode.dilates, hin]
    have hcv : toCv a.interp = .ok .nearest := by rw [hin]; rfl
    obtain ⟨pick, hpick, hcopy⟩ := hc
    refine ⟨dtypeOf o a, nodataFor o a, _, e.h, e.w, rfl, hch, hpo, ?_⟩
    intro r c hrr hcc
    have hdata := fun b h1 h2 => C02_ortho_pixels _ _ _ _ hm hr b r c h1 h2 (by show r < (o.info p).height; omega)
      (by show c < (o.info p).width; omega)
    have hsize : ∀ b, (o.read (dtypeOf o a) a.interp b).h = srcH ∧ (o.read (dtypeOf o a) a.interp b).w = srcW := by
      intro b
      rw [hu.read _ _ _ _ hcv]
      unfold readWith
      cases maps <;> exact hsz _ _
    obtain ⟨q, hq⟩ : ∃ q : K × K, ∀ b, orthoValue (remapIn o a e p wm) b r c =
        (match pick srcH srcW q.1 q.2 with
          | some k => (o.read (dtypeOf o a) a.interp b).get k.1 k.2
          | none => nodataFor o a) := by
      refine ⟨((o.cam a.interp).f32 (((o.cam a.interp).w2p (some (pixelCentre e.t r c).1) (some (pixelCentre e.t r c).2) (e.arr r c)).1.getD (-1)),
        (o.cam a.interp).f32 (((o.cam a.interp).w2p (some (pixelCentre e.t r c).1) (some (pixelCentre e.t r c).2) (e.arr r c)).2.getD (-1))), fun b => ?_⟩
      unfold orthoValue
      simp only [remapIn, hu.samp _ _ hcv, hcopy, (hsize b).1, (hsize b).2]
      cases pick srcH srcW _ _ <;> rfl
    cases hk : pick srcH srcW q.1 q.2 with
    | none =>
      refine Or.inl fun b h1 h2 => ?_
      show im₁.data b r c = _
      rw [hdata b h1 h2, hq, hk]
    | some k =>
      have hkin := hpick _ _ _ _ _ hk
      cases maps with
      | none =>
        refine Or.inr ⟨k.1, hkin.1, k.2, hkin.2, fun b h1 h2 => ?_⟩
        show im₁.data b r c = _
        rw [hdata b h1 h2, hq, hk]
        simp only [hu.read _ _ _ _ hcv, readWith]
      | some loc =>
        cases hl : pick srcH srcW (loc k.1 k.2).1 (loc k.1 k.2).2 with
        | none =>
          refine Or.inl fun b h1 h2 => ?_
          show im₁.data b r c = _
          rw [hdata b h1 h2, hq, hk]
          simp only [hu.read _ _ _ _ hcv, readWith, hcopy, (hsz _ b).1, (hsz _ b).2, hl]
          exact hnd _ _ hch
        | some l =>
          have hlin := hpick _ _ _ _ _ hl
          refine Or.inr ⟨l.1, hlin.1, l.2, hlin.2, fun b h1 h2 => ?_⟩
          show im₁.data b r c = _
          rw [hdata b h1 h2, hq, hk]
          simp only [hu.read _ _ _ _ hcv, readWith, hcopy, (hsz _ b).1, (hsz _ b).2, hl]
          rfl

/-- C129: with `nearest`, values can be replaced before or after: if the values of the source are replaced by others with a table that keeps nodata, then so are
those of the ortho, and nothing else of it changes. -/
theorem C129_table (o : Obj K (Img K)) (remap : CvRemap K) (hc : Copies remap) (maps : Option (ℕ → ℕ → K × K)) (nodata : String → Pix K)
    (raw raw' : String → ℕ → Img K) (read' : String → String → ℕ → Img K) (hu : Uses o remap maps nodata raw)
    (hu' : Uses { o with read := read' } remap maps nodata raw') (a : Args K) (hin : a.interp = "nearest") (table : Pix K → Pix K)
    (hraw : ∀ dt b, raw' dt b = ⟨(raw dt b).h, (raw dt b).w, fun r c => table ((raw dt b).get r c)⟩)
    (hi : InfoOk o) (ho : OptsOk a.opts) (path : String) (hn : Names a.file path)
    (hnd : ∀ dtype nd, Choice o a (a.resolution.getD (o.gsd, o.gsd)) dtype nd → nodata dtype = nd ∧ table nd = nd)
    (m : Mem K) (fs fs₁ fs₂ : FS (OrthoFile K)) (h1 : Process o a m fs none fs₁ (.ok ())) (h2 : Process { o with read := read' } a m fs none fs₂ (.ok ())) :
    ∃ f im h w, fs₁ = fs.put path (some f) ∧ fs₂ = fs.put path (some { f with im := im }) ∧
      (∃ dtype, ProfileOk f.profile a.driver dtype o.count h w) ∧
      ∀ b r c, 1 ≤ b → b ≤ o.count → r < h → c < w → im.data b r c = table (f.im.data b r c) := by
  cases h1 with
  | @done e p wm path₁ im₁ hp hop hf hin' hr =>
    obtain rfl := openCheck_names hn hop
    cases h2 with
    | @done e' p' wm' path₂ im₂ hp' hop' hf' hin'' hr' =>
      obtain rfl := openCheck_names hn hop'
      have hprep : prepare { o with read := read' } a m = prepare o a m := rfl
      rw [hprep, hp] at hp'
      cases hp'
      obtain ⟨-, -, -, h4⟩ := prepare_ok hp
      have hpo := profile_ok ho h4
      have hch : Choice o a (a.resolution.getD (o.gsd, o.gsd)) (dtypeOf o a) (nodataFor o a) := choice h4
      obtain ⟨hnod, htab⟩ := hnd _ _ hch
      have hh : (o.info p).height = e.h := hi.height _ _ hpo.height
      have hw : (o.info p).width = e.w := hi.width _ _ hpo.width
      have hm : (remapIn o a e p wm).mode.dilates (remapIn o a e p wm).nodata = false := by
        simp [remapIn, RemapMode.dilates, hin]
      have hm' : (remapIn { o with read := read' } a e p wm).mode.dilates (remapIn { o with read := read' } a e p wm).nodata = false := hm
      have hcv : toCv a.interp = .ok .nearest := by rw [hin]; rfl
      obtain ⟨pick, hpick, hcopy⟩ := hc
      have hread : ∀ b, read' (dtypeOf o a) a.interp b = ⟨(o.read (dtypeOf o a) a.interp b).h, (o.read (dtypeOf o a) a.interp b).w,
          fun r c => table ((o.read (dtypeOf o a) a.interp b).get r c)⟩ := by
        intro b
        have e2 := hu'.read a.interp .nearest (dtypeOf o a) b hcv
        simp only at e2
        rw [e2, hu.read _ _ _ _ hcv, hraw]
        unfold readWith
        cases maps with
        | none => rfl
        | some loc =>
          simp only [Img.mk.injEq, true_and]
          funext i j
          rw [hcopy, hcopy]
          simp only
          cases pick _ _ _ _ with
          | none => exact (hnod ▸ htab).symm
          | some q => rfl
      have hval : ∀ b r c, orthoValue (remapIn { o with read := read' } a e p wm) b r c = table (orthoValue (remapIn o a e p wm) b r c) := by
        intro b r c
        have hd' : dtypeOf { o with read := read' } a = dtypeOf o a := rfl
        have hn' : nodataFor { o with read := read' } a = nodataFor o a := rfl
        unfold orthoValue
        simp only [remapIn, hd', hn', hread, hu.samp _ _ hcv, hcopy]
        cases pick _ _ _ _ with
        | none => exact htab.symm
        | some q => rfl
      refine ⟨_, im₂, e.h, e.w, rfl, rfl, ⟨_, hpo⟩, ?_⟩
      intro b r c hb1 hb2 hrr hcc
      have e1 := C02_ortho_pixels _ _ _ _ hm hr b r c hb1 hb2 (by show r < (o.info p).height; omega) (by show c < (o.info p).width; omega)
      have e2 := C02_ortho_pixels _ _ _ _ hm' hr' b r c hb1 hb2 (by show r < (o.info p).height; omega) (by show c < (o.info p).width; omega)
      rw [e2, hval, ← e1]

/-! ## Examples -/

omit [IsStrictOrderedRing K] in
theorem copies0 : Copies (remap0 (K := K)) := by
  classical
  refine ⟨fun h w j i => if 0 ≤ round j ∧ 0 ≤ round i ∧ (round j).toNat < w ∧ (round i).toNat < h then some ((round i).toNat, (round j).toNat) else none, ?_, ?_⟩
  · intro h w j i q hq
    simp only at hq
    split_ifs at hq with hc
    cases hq
    exact ⟨hc.2.2.2, hc.2.2.1⟩
  · intro s j i
    show nearestPix s j i = _
    unfold nearestPix
    simp only
    by_cases h : 0 ≤ round j ∧ 0 ≤ round i ∧ (round j).toNat < s.w ∧ (round i).toNat < s.h
    · rw [if_pos h, if_pos h]; rfl
    · rw [if_neg h, if_neg h]; rfl

/-- `C129_nearest` for the image of C113 in a uint8 ortho. -/
example (src : ℕ → ℕ → ℚ) : ∃ (f : OrthoFile ℚ) (h w : ℕ),
    (∃ fs', Process { coarse src with gsd := 2 } { demoArgs with interp := "nearest" } demoMem (fun _ => none) none fs' (.ok ()) ∧ fs' "ortho.tif" = some f) ∧
    ProfileOk f.profile "gtiff" "uint8" 2 h w ∧
    ∀ r c, r < h → c < w → (∀ b, 1 ≤ b → b ≤ 2 → f.im.data b r c = some 0) ∨
      ∃ r' < 10, ∃ c' < 10, ∀ b, 1 ≤ b → b ≤ 2 → f.im.data b r c = some (src r' c' + b) := by
  have ho : OptsOk ({ demoArgs with interp := "nearest" } : Args ℚ).opts := ⟨by simp [Dict.Ok, demoArgs], by decide⟩
  have hi : InfoOk { coarse src with gsd := 2 } := ⟨demo_infoOk.height, demo_infoOk.width, demo_infoOk.block⟩
  have key : ∀ res dtype nd, Choice { coarse src with gsd := 2 } { demoArgs with interp := "nearest" } res dtype nd → dtype = "uint8" ∧ nd = some 0 := by
    intro res dtype nd hch
    have h1 : dtype = "uint8" := by
      rcases hch.type with ⟨h, -⟩ | ⟨-, h⟩
      · cases h
      · exact h
    subst h1
    rcases hch.nodata with ⟨-, h⟩ | ⟨h, -⟩ | ⟨h, -⟩
    · exact ⟨rfl, h⟩
    · exact absurd h (by decide)
    · exact absurd h (by decide)
  obtain ⟨⟨fs', h1⟩, -⟩ := C82_completes { coarse src with gsd := 2 } { demoArgs with interp := "nearest" } demoMem (fun _ => none) hi ho "ortho.tif" (2, 2) "uint8"
    (Or.inr ⟨rfl, rfl⟩) (Or.inr ⟨Or.inl rfl, rfl⟩)
    ⟨rfl, by decide, Or.inr ⟨by show (2 : ℚ) ≤ 8; norm_num, by show (2 : ℚ) ≤ 6; norm_num⟩, demo_ready.4, ⟨by decide, by decide, Or.inr (Or.inl rfl)⟩⟩
    ⟨Or.inl rfl, Or.inr rfl⟩ (by decide) ⟨by show 10 < 32767; decide, by show 10 < 32767; decide⟩ demo_small
  obtain ⟨dtype, nd, f, h, w, e1, e2, e3, e4⟩ := C129_nearest { coarse src with gsd := 2 } remap0 copies0 none (fun _ => some 0) (coarseRaw src)
    ⟨(coarse_uses src).same, (coarse_uses src).samp, (coarse_uses src).read⟩ { demoArgs with interp := "nearest" } rfl 10 10 (fun _ _ => ⟨rfl, rfl⟩) hi ho
    "ortho.tif" (Or.inl rfl) (fun dtype nd hch => ((key _ _ _ hch).2).symm) demoMem (fun _ => none) fs' none h1
  obtain ⟨rfl, rfl⟩ := key _ _ _ e2
  exact ⟨f, h, w, ⟨fs', h1, by rw [e1]; simp [FS.put]⟩, e3, e4⟩

/-- The camera of C113 with `distort=False`: its undistorted image is the source, moved by one and a quarter columns. -/
def undist (src : ℕ → ℕ → ℚ) : Obj ℚ (Img ℚ) :=
  { coarse src with
    gsd := 2
    distort := false
    read := fun dt s b => match toCv s with
      | .ok f => readWith remap0 (some fun i j => ((j : ℚ) + 5 / 4, (i : ℚ))) (some 0) (coarseRaw src dt b) f
      | .error _ => coarseRaw src dt b }

theorem undist_uses (src : ℕ → ℕ → ℚ) : Uses (undist src) remap0 (some fun i j => ((j : ℚ) + 5 / 4, (i : ℚ))) (fun _ => some 0) (coarseRaw src) where
  same := fun _ _ => ⟨rfl, rfl⟩
  samp := by intro s f h; simp [undist, coarse, h]
  read := by intro s f dt b h; simp [undist, h]

/-- `C129_nearest` for an image that is undistorted. -/
example (src : ℕ → ℕ → ℚ) (fs' : FS (OrthoFile ℚ))
    (h : Process (undist src) { demoArgs with interp := "nearest" } demoMem (fun _ => none) none fs' (.ok ())) :
    ∃ (f : OrthoFile ℚ) (h w : ℕ), fs' "ortho.tif" = some f ∧ ProfileOk f.profile "gtiff" "uint8" 2 h w ∧
    ∀ r c, r < h → c < w → (∀ b, 1 ≤ b → b ≤ 2 → f.im.data b r c = some 0) ∨
      ∃ r' < 10, ∃ c' < 10, ∀ b, 1 ≤ b → b ≤ 2 → f.im.data b r c = some (src r' c' + b) := by
  have key : ∀ res dtype nd, Choice (undist src) { demoArgs with interp := "nearest" } res dtype nd → dtype = "uint8" ∧ nd = some 0 := by
    intro res dtype nd hch
    have h1 : dtype = "uint8" := by
      rcases hch.type with ⟨h, -⟩ | ⟨-, h⟩
      · cases h
      · exact h
    subst h1
    rcases hch.nodata with ⟨-, h⟩ | ⟨h, -⟩ | ⟨h, -⟩
    · exact ⟨rfl, h⟩
    · exact absurd h (by decide)
    · exact absurd h (by decide)
  obtain ⟨dtype, nd, f, h, w, e1, e2, e3, e4⟩ := C129_nearest (undist src) remap0 copies0 _ (fun _ => some 0) (coarseRaw src)
    (undist_uses src) { demoArgs with interp := "nearest" } rfl 10 10 (fun _ _ => ⟨rfl, rfl⟩) ⟨demo_infoOk.height, demo_infoOk.width, demo_infoOk.block⟩
    ⟨by simp [Dict.Ok, demoArgs], by decide⟩
    "ortho.tif" (Or.inl rfl) (fun dtype nd hch => ((key _ _ _ hch).2).symm) demoMem (fun _ => none) fs' none h
  obtain ⟨rfl, rfl⟩ := key _ _ _ e2
  exact ⟨f, h, w, by rw [e1]; simp [FS.put], e3, e4⟩

/-- It completes. -/
example (src : ℕ → ℕ → ℚ) : ∃ fs', Process (undist src) { demoArgs with interp := "nearest" } demoMem (fun _ => none) none fs' (.ok ()) :=
  (C82_completes (undist src) { demoArgs with interp := "nearest" } demoMem (fun _ => none) ⟨demo_infoOk.height, demo_infoOk.width, demo_infoOk.block⟩
    ⟨by simp [Dict.Ok, demoArgs], by decide⟩ "ortho.tif" (2, 2) "uint8" (Or.inr ⟨rfl, rfl⟩) (Or.inr ⟨Or.inl rfl, rfl⟩)
    ⟨rfl, by decide, Or.inr ⟨by show (2 : ℚ) ≤ 8; norm_num, by show (2 : ℚ) ≤ 6; norm_num⟩, demo_ready.4, ⟨by decide, by decide, Or.inr (Or.inl rfl)⟩⟩
    ⟨Or.inl rfl, Or.inr rfl⟩ (by decide) ⟨by show 10 < 32767; decide, by show 10 < 32767; decide⟩ demo_small).1

/-- `C129_table` for an undistorted image, with 7 in place of 3. -/
example (src : ℕ → ℕ → ℚ) (fs₁ fs₂ : FS (OrthoFile ℚ)) (h1 : Process (undist src) { demoArgs with interp := "nearest" } demoMem (fun _ => none) none fs₁ (.ok ()))
    (h2 : Process { undist src with read := fun dt s b => match toCv s with
      | .ok f => readWith remap0 (some fun i j => ((j : ℚ) + 5 / 4, (i : ℚ))) (some 0) ⟨10, 10, fun r c => if src r c + b = 3 then some 7 else some (src r c + b)⟩ f
      | .error _ => coarseRaw src dt b } { demoArgs with interp := "nearest" } demoMem (fun _ => none) none fs₂ (.ok ())) :
    ∃ f im h w, fs₁ = FS.put (fun _ => none) "ortho.tif" (some f) ∧ fs₂ = FS.put (fun _ => none) "ortho.tif" (some { f with im := im }) ∧
      (∃ dtype, ProfileOk f.profile "gtiff" dtype 2 h w) ∧
      ∀ b r c, 1 ≤ b → b ≤ 2 → r < h → c < w → im.data b r c = if f.im.data b r c = some 3 then some 7 else f.im.data b r c := by
  refine C129_table (undist src) remap0 copies0 _ (fun _ => some 0) (coarseRaw src)
    (fun _ b => ⟨10, 10, fun r c => if src r c + b = 3 then some 7 else some (src r c + b)⟩) _ (undist_uses src) ⟨fun _ _ => ⟨rfl, rfl⟩, ?_, ?_⟩
    { demoArgs with interp := "nearest" } rfl (fun v => if v = some 3 then some 7 else v) ?_ ⟨demo_infoOk.height, demo_infoOk.width, demo_infoOk.block⟩
    ⟨by simp [Dict.Ok, demoArgs], by decide⟩ "ortho.tif" (Or.inl rfl) ?_ demoMem (fun _ => none) fs₁ fs₂ h1 h2
  · intro s f h; simp [undist, coarse, h]
  · intro s f dt b h; simp [h]
  · intro dt b
    simp [coarseRaw]
  · intro dtype nd hch
    have h1 : dtype = "uint8" := by
      rcases hch.type with ⟨h, -⟩ | ⟨-, h⟩
      · cases h
      · exact h
    subst h1
    rcases hch.nodata with ⟨-, h⟩ | ⟨h, -⟩ | ⟨h, -⟩
    · subst h; exact ⟨rfl, by simp⟩
    · exact absurd h (by decide)
    · exact absurd h (by decide)

end Verif.OrthoProcess.Nearest
