import Verif.Ortho.Interp

/-!
# C128: gain and offset of a source image

An ortho image with a floating point data type follows a gain and offset of the source image.
-/

set_option autoImplicit false

namespace Verif.OrthoProcess.Radiometry

open Verif.Ortho Verif.Common Verif.Files Verif.Dem Verif.OrthoProcess.Interpolate

variable {K : Type} [Field K] [LinearOrder K]

/-! ## Specification -/

/-- A value with a gain and an offset; NaN stays NaN. -/
def scaled (g k : K) (v : Pix K) : Pix K := v.map fun x => g * x + k

/-- A band with a gain and an offset. -/
def scaledBand (g k : K) (s : Img K) : Img K := ⟨s.h, s.w, fun r c => scaled g k (s.get r c)⟩

/-- Interpolation is a mean with weights that do not depend on the values of pixels, and add up to one: OpenCV's tables of weights are normalised.
This is without rounding. -/
def Follows (remap : CvRemap K) (g k : K) : Prop := ∀ f s j i, remap f (scaledBand g k s) j i = (remap f s j i).map (scaled g k)

/-- The data type of the ortho is a floating point type. -/
def FloatType {Src : Type} (o : Obj K Src) (a : Args K) (dtype : String) : Prop :=
  dtype ∈ ["float32", "float64"] ∧ (a.dtype = some dtype ∨ ((a.dtype = none ∨ a.dtype = some "") ∧ dtype = o.srcDtype))

variable [IsStrictOrderedRing K] [FloorRing K]

/-! ## Theorems -/

omit [LinearOrder K] [IsStrictOrderedRing K] [FloorRing K] in
theorem floatType_eq {Src : Type} {o : Obj K Src} {a : Args K} {dtype : String} (h : FloatType o a dtype) :
    dtypeOf o a = dtype ∧ nodataFor o a = none := by
  obtain ⟨h1, h2⟩ := h
  have e : dtypeOf o a = dtype := by
    unfold dtypeOf
    rcases h2 with h2 | ⟨h2 | h2, h3⟩
    · rw [h2]
      have : dtype ≠ "" := by rintro rfl; simp at h1
      simp [this]
    · simp [h2, h3]
    · simp [h2, h3]
  refine ⟨e, ?_⟩
  unfold nodataFor
  rw [e]
  simp only [List.mem_cons, List.not_mem_nil, or_false] at h1
  rcases h1 with rfl | rfl <;> rfl

/-- C128: when each band of the source image, as it is read in the floating point data type of the ortho, has a gain and an offset, then so has each
pixel of the ortho; nodata and the mask stay where they are, and the ortho has the same profile, georeferencing, colours and overviews.  This is
for cameras of all kinds, with their images undistorted or not, all interpolation types, and any interleavings of threads. -/
theorem C128_gain (o : Obj K (Img K)) (remap : CvRemap K) (maps : Option (ℕ → ℕ → K × K)) (nodata : String → Pix K) (raw raw' : String → ℕ → Img K)
    (read' : String → String → ℕ → Img K) (hu : Uses o remap maps nodata raw) (hu' : Uses { o with read := read' } remap maps nodata raw')
    (g k : K) (hg : Follows remap g k) (a : Args K) (dtype : String) (hd : FloatType o a dtype) (hnd : nodata dtype = none)
    (hraw : ∀ b, raw' dtype b = scaledBand g k (raw dtype b)) (hi : InfoOk o) (ho : OptsOk a.opts) (path : String) (hn : Names a.file path)
    (m : Mem K) (fs fs₁ fs₂ : FS (OrthoFile K)) (h1 : Process o a m fs none fs₁ (.ok ())) (h2 : Process { o with read := read' } a m fs none fs₂ (.ok ())) :
    ∃ f im h w, fs₁ = fs.put path (some f) ∧ fs₂ = fs.put path (some { f with im := im }) ∧ ProfileOk f.profile a.driver dtype o.count h w ∧
      (∀ b r c, 1 ≤ b → b ≤ o.count → r < h → c < w → im.data b r c = scaled g k (f.im.data b r c)) ∧
      (a.writeMask = some true → 1 ≤ o.count → ∀ r c, r < h → c < w → im.valid r c = f.im.valid r c) := by
  obtain ⟨hdt, hnod⟩ := floatType_eq hd
  cases h1 with
  | @done e p wm path₁ im₁ hp hc hf hin hr =>
    obtain rfl := openCheck_names hn hc
    cases h2 with
    | @done e' p' wm' path₂ im₂ hp' hc' hf' hin' hr' =>
      obtain rfl := openCheck_names hn hc'
      have hprep : prepare { o with read := read' } a m = prepare o a m := rfl
      rw [hprep, hp] at hp'
      cases hp'
      obtain ⟨-, -, -, h4⟩ := prepare_ok hp
      have hpo := profile_ok ho h4
      rw [hdt] at hpo
      have hh : (o.info p).height = e.h := hi.height _ _ hpo.height
      have hw : (o.info p).width = e.w := hi.width _ _ hpo.width
      have hm : (remapIn o a e p wm).mode.dilates (remapIn o a e p wm).nodata = false := by
        simp [remapIn, RemapMode.dilates, hnod]
      have hm' : (remapIn { o with read := read' } a e p wm).mode.dilates (remapIn { o with read := read' } a e p wm).nodata = false := hm
      obtain ⟨fcv, hcv⟩ : ∃ f, toCv a.interp = .ok f := by
        simp only [interps, List.mem_cons, List.not_mem_nil, or_false] at hin
        rcases hin with h | h | h | h | h <;> rw [h] <;> exact ⟨_, rfl⟩
      have hread : ∀ b, read' dtype a.interp b = scaledBand g k (o.read dtype a.interp b) := by
        intro b
        have e2 := hu'.read a.interp fcv dtype b hcv
        simp only at e2
        rw [e2, hu.read _ _ _ _ hcv, hraw]
        unfold readWith
        cases maps with
        | none => rfl
        | some loc =>
          simp only [scaledBand, Img.mk.injEq, true_and]
          funext i j
          have := hg fcv (raw dtype b) (loc i j).1 (loc i j).2
          simp only [scaledBand] at this
          rw [this, hnd]
          cases remap fcv (raw dtype b) (loc i j).1 (loc i j).2 <;> rfl
      have hval : ∀ b r c, orthoValue (remapIn { o with read := read' } a e p wm) b r c = scaled g k (orthoValue (remapIn o a e p wm) b r c) := by
        intro b r c
        have hd' : dtypeOf { o with read := read' } a = dtype := hdt
        have hn' : nodataFor { o with read := read' } a = none := hnod
        unfold orthoValue
        simp only [remapIn, hdt, hnod, hd', hn', hread, hu.samp _ _ hcv]
        rw [hg]
        generalize remap fcv _ _ _ = v
        cases v <;> rfl
      have hnone : ∀ v : Pix K, scaled g k v ≠ none ↔ v ≠ none := by intro v; cases v <;> simp [scaled]
      refine ⟨_, im₂, e.h, e.w, rfl, rfl, hpo, ?_, ?_⟩
      · intro b r c hb1 hb2 hrr hcc
        have e1 := C02_ortho_pixels _ _ _ _ hm hr b r c hb1 hb2 (by show r < (o.info p).height; omega) (by show c < (o.info p).width; omega)
        have e2 := C02_ortho_pixels _ _ _ _ hm' hr' b r c hb1 hb2 (by show r < (o.info p).height; omega) (by show c < (o.info p).width; omega)
        rw [e2, hval, ← e1]
      · intro hwm hcnt r c hrr hcc
        have hw' : wm = true := by
          rw [hwm] at h4
          exact createProfile_writeMask h4
        rw [Bool.eq_iff_iff]
        cases hpb : a.perBand with
        | true =>
          rw [hpb] at hr hr'
          have e1 := C04_per_band_mask _ _ _ hm hw' hcnt hr r c (by show r < (o.info p).height; omega) (by show c < (o.info p).width; omega)
          have e2 := C04_per_band_mask _ _ _ hm' hw' hcnt hr' r c (by show r < (o.info p).height; omega) (by show c < (o.info p).width; omega)
          rw [hval] at e2
          refine e2.trans (Iff.trans ?_ e1.symm)
          have hn' : nodataFor { o with read := read' } a = none := hnod
          simp only [remapIn, hnod, hn']
          exact hnone _
        | false =>
          rw [hpb] at hr hr'
          have e1 := C04_all_bands_mask _ _ _ hm hw' hr r c (by show r < (o.info p).height; omega) (by show c < (o.info p).width; omega)
          have e2 := C04_all_bands_mask _ _ _ hm' hw' hr' r c (by show r < (o.info p).height; omega) (by show c < (o.info p).width; omega)
          refine e2.trans (Iff.trans ?_ e1.symm)
          unfold orthoValid
          simp only [hval]
          have hn' : nodataFor { o with read := read' } a = none := hnod
          simp only [remapIn, hnod, hn']
          exact exists_congr fun b => and_congr_right fun _ => and_congr_right fun _ => hnone _

/-- C128 is for floating point types: with an integer type, whose nodata is a number, an offset of one makes a pixel with data one without. -/
theorem C128_integer_fails : ∃ p q : RemapIn ℚ (List ℚ), ∃ im : OrthoIm ℚ, q = { p with readBand := q.readBand } ∧
    q.readBand 1 = (p.readBand 1).map (fun x => 1 * x + -1) ∧ p.nodata = some 0 ∧
    (∃ x, Remap p false im (.ok x)) ∧ (∃ y, Remap q false im (.ok y)) ∧
    ∀ x y, Remap p false im (.ok x) → Remap q false im (.ok y) → x.valid 0 0 = true ∧ y.valid 0 0 = false := by
  refine ⟨demo [[1, 7]] 2 2 plainMode, demo [[0, 6]] 2 2 plainMode, ⟨fun _ _ _ => none, fun _ _ => false⟩, rfl, by decide +kernel, rfl, ?_, ?_, ?_⟩
  · exact (C02_completes _ false _ (by decide) (by decide) (by decide) (by decide) (by decide)).1
  · exact (C02_completes _ false _ (by decide) (by decide) (by decide) (by decide) (by decide)).1
  · intro x y hx hy
    have h1 := C04_all_bands_mask _ _ x (by rfl) rfl hx 0 0 (by decide) (by decide)
    have h2 := C04_all_bands_mask _ _ y (by rfl) rfl hy 0 0 (by decide) (by decide)
    constructor
    · rw [h1]
      exact ⟨1, by decide, by decide, by decide +kernel⟩
    · rw [← Bool.not_eq_true, h2]
      rintro ⟨b, hb1, hb2, hb⟩
      have : b = 1 := le_antisymm hb2 hb1
      subst this
      exact hb (by decide +kernel)

/-! ## Examples -/

omit [IsStrictOrderedRing K] in
/-- Nearest and bilinear interpolation follow gains and offsets. -/
theorem follows0 (g k : K) : Follows remap0 g k := by
  have lin : ∀ (s : Img K) (j i : K), bilinear (scaledBand g k s) j i = (bilinear s j i).map (scaled g k) := by
    intro s j i
    by_cases h : 0 ≤ ⌊j⌋ ∧ 0 ≤ ⌊i⌋ ∧ ⌊j⌋.toNat + 1 < s.w ∧ ⌊i⌋.toNat + 1 < s.h
    · unfold bilinear
      rw [if_pos h, if_pos (show 0 ≤ ⌊j⌋ ∧ 0 ≤ ⌊i⌋ ∧ ⌊j⌋.toNat + 1 < (scaledBand g k s).w ∧ ⌊i⌋.toNat + 1 < (scaledBand g k s).h from h)]
      simp only [scaledBand, Option.map_some, Option.some.injEq]
      cases s.get ⌊i⌋.toNat ⌊j⌋.toNat with
      | none => rfl
      | some p =>
        cases s.get ⌊i⌋.toNat (⌊j⌋.toNat + 1) with
        | none => rfl
        | some q =>
          cases s.get (⌊i⌋.toNat + 1) ⌊j⌋.toNat with
          | none => rfl
          | some u =>
            cases s.get (⌊i⌋.toNat + 1) (⌊j⌋.toNat + 1) with
            | none => rfl
            | some v =>
              simp only [scaled, Option.map_some, Option.bind_eq_bind, Option.bind_some, Option.pure_def, Option.some.injEq]
              ring
    · unfold bilinear
      rw [if_neg h, if_neg (show ¬ (0 ≤ ⌊j⌋ ∧ 0 ≤ ⌊i⌋ ∧ ⌊j⌋.toNat + 1 < (scaledBand g k s).w ∧ ⌊i⌋.toNat + 1 < (scaledBand g k s).h) from h)]
      rfl
  intro f s j i
  cases f with
  | nearest =>
    show nearestPix _ j i = (nearestPix s j i).map _
    by_cases h : 0 ≤ round j ∧ 0 ≤ round i ∧ (round j).toNat < s.w ∧ (round i).toNat < s.h
    · unfold nearestPix
      rw [if_pos h, if_pos (show 0 ≤ round j ∧ 0 ≤ round i ∧ (round j).toNat < (scaledBand g k s).w ∧ (round i).toNat < (scaledBand g k s).h from h)]
      rfl
    · unfold nearestPix
      rw [if_neg h, if_neg (show ¬ (0 ≤ round j ∧ 0 ≤ round i ∧ (round j).toNat < (scaledBand g k s).w ∧ (round i).toNat < (scaledBand g k s).h) from h)]
      rfl
  | linear => exact lin s j i
  | cubic => exact lin s j i
  | area => exact lin s j i
  | lanczos4 => exact lin s j i

/-- The camera of C113 with a gain and offset of its image. -/
theorem coarse_scaled_uses (src : ℕ → ℕ → ℚ) (g k : ℚ) :
    Uses { coarse src with read := fun dt s b => scaledBand g k ((coarse src).read dt s b) } remap0 none (fun _ => none)
      (fun dt b => scaledBand g k (coarseRaw src dt b)) where
  same := fun _ _ => ⟨rfl, rfl⟩
  samp := by intro s f h; simp [coarse, h]
  read := fun _ _ _ _ _ => rfl

theorem coarse_uses_nan (src : ℕ → ℕ → ℚ) : Uses (coarse src) remap0 none (fun _ => none) (coarseRaw src) where
  same := fun _ _ => ⟨rfl, rfl⟩
  samp := by intro s f h; simp [coarse, h]
  read := fun _ _ _ _ _ => rfl

/-- Arguments for a float32 ortho. -/
def floatArgs : Args ℚ := { demoArgs with dtype := some "float32", interp := "bilinear" }

theorem coarse_ready (src : ℕ → ℕ → ℚ) : Ready { coarse src with gsd := 2 } floatArgs demoMem (2, 2) "float32" := by
  refine ⟨rfl, by decide, Or.inr ⟨by show (2 : ℚ) ≤ 8; norm_num, by show (2 : ℚ) ≤ 6; norm_num⟩, ?_, ⟨by decide, by decide, Or.inr (Or.inl rfl)⟩⟩
  exact demo_ready.4

/-- `C128_gain` for the example: both runs complete, and the second ortho has the values of the first twice plus 3. -/
example (src : ℕ → ℕ → ℚ) : ∃ (f : OrthoFile ℚ) (im : OrthoIm ℚ) (h w : ℕ),
    (∃ fs₁, Process { coarse src with gsd := 2 } floatArgs demoMem (fun _ => none) none fs₁ (.ok ()) ∧ fs₁ "ortho.tif" = some f) ∧
    (∃ fs₂, Process { coarse src with gsd := 2, read := fun dt s b => scaledBand 2 3 ((coarse src).read dt s b) } floatArgs demoMem (fun _ => none) none
      fs₂ (.ok ()) ∧ fs₂ "ortho.tif" = some { f with im := im }) ∧
    ProfileOk f.profile "gtiff" "float32" 2 h w ∧
    ∀ b r c, 1 ≤ b → b ≤ 2 → r < h → c < w → im.data b r c = scaled 2 3 (f.im.data b r c) := by
  have ho : OptsOk floatArgs.opts := ⟨by simp [Dict.Ok, floatArgs, demoArgs], by decide⟩
  have hi : InfoOk { coarse src with gsd := 2 } := ⟨demo_infoOk.height, demo_infoOk.width, demo_infoOk.block⟩
  have hopen : CanOpen floatArgs.file floatArgs.overwrite (fun _ => (none : Option (OrthoFile ℚ))) "ortho.tif" := ⟨Or.inl rfl, Or.inr rfl⟩
  obtain ⟨⟨fs₁, h1⟩, -⟩ := C82_completes { coarse src with gsd := 2 } floatArgs demoMem (fun _ => none) hi ho "ortho.tif" (2, 2) "float32"
    (Or.inr ⟨rfl, rfl⟩) (Or.inl ⟨rfl, by decide⟩) (coarse_ready src) hopen (by decide) ⟨by show 10 < 32767; decide, by show 10 < 32767; decide⟩ demo_small
  obtain ⟨⟨fs₂, h2⟩, -⟩ := C82_completes { coarse src with gsd := 2, read := fun dt s b => scaledBand 2 3 ((coarse src).read dt s b) } floatArgs demoMem
    (fun _ => none) ⟨demo_infoOk.height, demo_infoOk.width, demo_infoOk.block⟩ ho "ortho.tif" (2, 2) "float32"
    (Or.inr ⟨rfl, rfl⟩) (Or.inl ⟨rfl, by decide⟩) ⟨rfl, by decide, (coarse_ready src).3, demo_ready.4, (coarse_ready src).5⟩ hopen (by decide) ⟨by show 10 < 32767; decide, by show 10 < 32767; decide⟩ demo_small
  obtain ⟨f, im, h, w, e1, e2, e3, e4, -⟩ := C128_gain { coarse src with gsd := 2 } remap0 none (fun _ => none) (coarseRaw src)
    (fun dt b => scaledBand 2 3 (coarseRaw src dt b)) (fun dt s b => scaledBand 2 3 ((coarse src).read dt s b))
    ⟨(coarse_uses_nan src).same, (coarse_uses_nan src).samp, (coarse_uses_nan src).read⟩
    ⟨(coarse_scaled_uses src 2 3).same, (coarse_scaled_uses src 2 3).samp, (coarse_scaled_uses src 2 3).read⟩
    2 3 (follows0 2 3) floatArgs "float32" ⟨by decide, Or.inl rfl⟩ rfl (fun _ => rfl) hi ho "ortho.tif" (Or.inl rfl) demoMem (fun _ => none) fs₁ fs₂ h1 h2
  exact ⟨f, im, h, w, ⟨fs₁, h1, by rw [e1]; simp [FS.put]⟩, ⟨fs₂, h2, by rw [e2]; simp [FS.put]⟩, e3, e4⟩

end Verif.OrthoProcess.Radiometry
