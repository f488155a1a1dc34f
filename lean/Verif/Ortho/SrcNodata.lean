import Verif.Ortho.Interp

/-!
# C114: source pixels without data

Source images can have pixels without data: ones with the nodata value of the file, or masked by an alpha band or mask.  `Camera.read` reads the values of
the bands only.
-/

set_option autoImplicit false

namespace Verif.OrthoProcess.Interpolate

open Verif.Ortho Verif.Common Verif.Files Verif.Dem

variable {K : Type} [Field K] [LinearOrder K]

/-! ## Model -/

/-- A source image file: values of its bands by band, row and column, and where they have data (the masks of the file, which come from its nodata
value, alpha band or mask). -/
structure SrcFile (K : Type) where
  h : ℕ
  w : ℕ
  val : ℕ → ℕ → ℕ → K
  hasData : ℕ → ℕ → ℕ → Bool

/-- orthority/camera.py:311-317: `im.read(indexes=indexes, out_dtype=dtype)`, which gives values (`conv` is the conversion to the data type), not masks. -/
def readBand (conv : String → K → Pix K) (F : SrcFile K) (dtype : String) (b : ℕ) : Img K :=
  ⟨F.h, F.w, fun r c => conv dtype (F.val b r c)⟩

/-! ## Specification -/

/-- `cv2.remap` with nearest interpolation gives the pixel that is less than half a pixel from the position. -/
def NearestOk (remap : CvRemap K) : Prop := ∀ (src : Img K) (j i : K) (r c : ℕ), r < src.h → c < src.w → |j - c| < 1 / 2 → |i - r| < 1 / 2 →
  remap .nearest src j i = some (src.get r c)

/-- `cv2.remap` with linear interpolation gives the mean of two pixels of a row, half way between them. -/
def LinearOk (remap : CvRemap K) : Prop := ∀ (src : Img K) (r c : ℕ) (p q : K), r + 1 < src.h → c + 1 < src.w → src.get r c = some p →
  src.get r (c + 1) = some q → src.get (r + 1) c ≠ none → src.get (r + 1) (c + 1) ≠ none →
  remap .linear src (c + 1 / 2) r = some (some ((p + q) / 2))

/-- Where the camera sees the centre of pixel (`i`, `j`) of the DEM `d`, which is in its footprint: at column `u` and row `v` of the source, as
float32. -/
def SeesAt [FloorRing K] {Src : Type} (o : Obj K Src) (a : Args K) (res : K × K) (d : DemOut K) (i j : ℕ) (u v : K) : Prop :=
  o.InView a res d i j ∧ ∃ u' v', (o.cam a.interp).w2p (some (d.t.apply ((j : K) + 1 / 2) ((i : K) + 1 / 2)).1)
    (some (d.t.apply ((j : K) + 1 / 2) ((i : K) + 1 / 2)).2) (d.arr i j) = (some u', some v') ∧
    (o.cam a.interp).f32 u' = u ∧ (o.cam a.interp).f32 v' = v

/-! ## Theorems -/

variable [IsStrictOrderedRing K] [FloorRing K]

omit [IsStrictOrderedRing K] in
theorem ground_sees {o : Obj K (Img K)} {remap : CvRemap K} {nodata : String → Pix K} {raw : String → ℕ → Img K} (hu : Uses o remap none nodata raw)
    {a : Args K} {f : CvInterp} (hf : toCv a.interp = .ok f) {res : K × K} {dtype : String} {nd : Pix K} {d : DemOut K} {b i j : ℕ} {u v : K}
    (hs : SeesAt o a res d i j u v) : o.ground a res dtype nd d b i j = (remap f (raw dtype b) u v).getD nd := by
  obtain ⟨hv, u', v', hw, rfl, rfl⟩ := hs
  unfold Obj.ground
  rw [if_pos hv]
  simp only [Obj.seen, hw, Option.getD_some, hu.samp _ _ hf, hu.read _ _ _ _ hf, readWith]

/-- C114: in orthos with `nearest` interpolation, each band has the value of the source pixel that the camera sees, whether or not the source has data
there.  So the pixel has no data in the ortho exactly if the value in the source is the nodata value of the ortho. -/
theorem C114_nearest (o : Obj K (Img K)) (remap : CvRemap K) (hr : NearestOk remap) (nodata : String → Pix K) (conv : String → K → Pix K)
    (F : SrcFile K) (hu : Uses o remap none nodata (readBand conv F)) (a : Args K) (hin : a.interp = "nearest") (m : Mem K)
    (fs fs' : FS (OrthoFile K)) (fault : Option (Fault (OrthoFile K))) (hi : InfoOk o) (hnan : o.NanUnseen) (ho : OptsOk a.opts) (path : String)
    (hn : Names a.file path) (h : Process o a m fs fault fs' (.ok ())) :
    ∃ res dtype nd f d h w r0 c0, fs' = fs.put path (some f) ∧ Choice o a res dtype nd ∧
      DemAt o.dem o.crsEqual (o.call a.demInterp res) m d ∧ Covers o a res d f h w r0 c0 ∧
      ∀ b r c r' c' : ℕ, ∀ u v : K, 1 ≤ b → b ≤ o.count → r < h → c < w → r' < F.h → c' < F.w → SeesAt o a res d (r0 + r) (c0 + c) u v →
        |u - c'| < 1 / 2 → |v - r'| < 1 / 2 → f.im.data b r c = conv dtype (F.val b r' c') := by
  obtain ⟨res, dtype, nd, f, d, hh, w, r0, c0, h1, h2, h3, h4, -, -, -, -, h9⟩ :=
    C82_pixels o a m fs fs' fault hi hnan ho path hn (.inr (.inr (.inr hin))) h
  refine ⟨res, dtype, nd, f, d, hh, w, r0, c0, h1, h2, h3, h4, ?_⟩
  intro b r c r' c' u v hb1 hb2 hr1 hc1 hr2 hc2 hs hu1 hv1
  rw [h9 b r c hb1 hb2 hr1 hc1, ground_sees hu (f := .nearest) (by rw [hin]; rfl) hs, hr (readBand conv F dtype b) u v r' c' hr2 hc2 hu1 hv1]
  rfl

/-- C114 fails: in orthos with `nearest` interpolation and `write_mask`, a pixel at which the camera sees a source pixel without data is valid, if the
value of that (which the ortho pixel has, `C114_nearest`) is not the nodata value of the ortho. -/
theorem C114_fails (o : Obj K (Img K)) (remap : CvRemap K) (hr : NearestOk remap) (nodata : String → Pix K) (conv : String → K → Pix K)
    (F : SrcFile K) (hu : Uses o remap none nodata (readBand conv F)) (a : Args K) (hin : a.interp = "nearest") (hwm : a.writeMask = some true)
    (hpb : a.perBand = false) (m : Mem K)
    (fs fs' : FS (OrthoFile K)) (fault : Option (Fault (OrthoFile K))) (hi : InfoOk o) (hnan : o.NanUnseen) (ho : OptsOk a.opts) (path : String)
    (hn : Names a.file path) (h : Process o a m fs fault fs' (.ok ())) :
    ∃ res dtype nd f d h w r0 c0, fs' = fs.put path (some f) ∧ Choice o a res dtype nd ∧
      DemAt o.dem o.crsEqual (o.call a.demInterp res) m d ∧ Covers o a res d f h w r0 c0 ∧
      ∀ b r c r' c' : ℕ, ∀ u v : K, 1 ≤ b → b ≤ o.count → r < h → c < w → r' < F.h → c' < F.w → SeesAt o a res d (r0 + r) (c0 + c) u v →
        |u - c'| < 1 / 2 → |v - r'| < 1 / 2 → F.hasData b r' c' = false → conv dtype (F.val b r' c') ≠ nd →
        f.im.valid r c = true := by
  by_cases hc : 1 ≤ o.count
  · obtain ⟨res, dtype, nd, f, d, hh, w, r0, c0, h1, h2, h3, h4, h5⟩ :=
      C82_mask o a m fs fs' fault hi hnan ho path hn (.inr (.inr (.inr hin))) hc hwm h
    refine ⟨res, dtype, nd, f, d, hh, w, r0, c0, h1, h2, h3, h4, ?_⟩
    intro b r c r' c' u v hb1 hb2 hr1 hc1 hr2 hc2 hs hu1 hv1 _ hne
    rw [h5 r c hr1 hc1, hpb, if_neg (by simp)]
    refine ⟨b, hb1, hb2, ?_⟩
    rw [ground_sees hu (f := .nearest) (by rw [hin]; rfl) hs, hr (readBand conv F dtype b) u v r' c' hr2 hc2 hu1 hv1]
    exact hne
  · obtain ⟨res, dtype, nd, f, d, hh, w, r0, c0, h1, h2, h3, h4, -, -, -, -, -⟩ :=
      C82_pixels o a m fs fs' fault hi hnan ho path hn (.inr (.inr (.inr hin))) h
    refine ⟨res, dtype, nd, f, d, hh, w, r0, c0, h1, h2, h3, h4, ?_⟩
    intro b r c r' c' u v hb1 hb2
    omega

/-- C114, the part that holds: with `nearest` interpolation, when the source has the nodata value of the ortho where it has no data, the ortho has
no data where the camera sees such pixels, and data where it sees others, unless those have the nodata value of the ortho too; so with `write_mask`
for pixels without data in all bands.  Missing: other nodata values and masks of sources (`C114_fails`), and other interpolation types
(`C114_blend_fails`). -/
theorem C114_partial (o : Obj K (Img K)) (remap : CvRemap K) (hr : NearestOk remap) (nodata : String → Pix K) (conv : String → K → Pix K)
    (F : SrcFile K) (hu : Uses o remap none nodata (readBand conv F)) (a : Args K) (hin : a.interp = "nearest") (hwm : a.writeMask = some true)
    (hpb : a.perBand = false) (hcnt : 1 ≤ o.count) (m : Mem K)
    (fs fs' : FS (OrthoFile K)) (fault : Option (Fault (OrthoFile K))) (hi : InfoOk o) (hnan : o.NanUnseen) (ho : OptsOk a.opts) (path : String)
    (hn : Names a.file path)
    (hnd : ∀ res dtype nd, Choice o a res dtype nd → ∀ b r c, 1 ≤ b → b ≤ o.count → r < F.h → c < F.w →
      (conv dtype (F.val b r c) = nd ↔ F.hasData b r c = false))
    (h : Process o a m fs fault fs' (.ok ())) :
    ∃ res dtype nd f d h w r0 c0, fs' = fs.put path (some f) ∧ Choice o a res dtype nd ∧
      DemAt o.dem o.crsEqual (o.call a.demInterp res) m d ∧ Covers o a res d f h w r0 c0 ∧
      ∀ r c r' c' : ℕ, ∀ u v : K, r < h → c < w → r' < F.h → c' < F.w → SeesAt o a res d (r0 + r) (c0 + c) u v →
        |u - c'| < 1 / 2 → |v - r'| < 1 / 2 →
        (f.im.valid r c = true ↔ ∃ b, 1 ≤ b ∧ b ≤ o.count ∧ F.hasData b r' c' = true) := by
  obtain ⟨res, dtype, nd, f, d, hh, w, r0, c0, h1, h2, h3, h4, h5⟩ :=
    C82_mask o a m fs fs' fault hi hnan ho path hn (.inr (.inr (.inr hin))) hcnt hwm h
  refine ⟨res, dtype, nd, f, d, hh, w, r0, c0, h1, h2, h3, h4, ?_⟩
  intro r c r' c' u v hr1 hc1 hr2 hc2 hs hu1 hv1
  rw [h5 r c hr1 hc1, hpb, if_neg (by simp)]
  have hg : ∀ b, o.ground a res dtype nd d b (r0 + r) (c0 + c) = conv dtype (F.val b r' c') := by
    intro b
    rw [ground_sees hu (f := .nearest) (by rw [hin]; rfl) hs, hr (readBand conv F dtype b) u v r' c' hr2 hc2 hu1 hv1]
    rfl
  simp only [hg]
  constructor
  · rintro ⟨b, hb1, hb2, hb3⟩
    refine ⟨b, hb1, hb2, ?_⟩
    rw [ne_eq, hnd res dtype nd h2 b r' c' hb1 hb2 hr2 hc2] at hb3
    simpa using hb3
  · rintro ⟨b, hb1, hb2, hb3⟩
    refine ⟨b, hb1, hb2, ?_⟩
    rw [ne_eq, hnd res dtype nd h2 b r' c' hb1 hb2 hr2 hc2]
    simp [hb3]

/-- C114 fails: with `bilinear` interpolation, the value that a source pixel without data has is mixed into the ortho, whatever that value is (the nodata
value of the ortho included): half way between it and a pixel with data, the ortho is their mean. -/
theorem C114_blend_fails (o : Obj K (Img K)) (remap : CvRemap K) (hr : LinearOk remap) (nodata : String → Pix K) (conv : String → K → Pix K)
    (F : SrcFile K) (hu : Uses o remap none nodata (readBand conv F)) (a : Args K) (hin : a.interp = "bilinear")
    (hmode : o.frame = false ∨ o.distort = true ∨ o.pinhole = true) (m : Mem K)
    (fs fs' : FS (OrthoFile K)) (fault : Option (Fault (OrthoFile K))) (hi : InfoOk o) (hnan : o.NanUnseen) (ho : OptsOk a.opts) (path : String)
    (hn : Names a.file path) (h : Process o a m fs fault fs' (.ok ())) :
    ∃ res dtype nd f d h w r0 c0, fs' = fs.put path (some f) ∧ Choice o a res dtype nd ∧
      DemAt o.dem o.crsEqual (o.call a.demInterp res) m d ∧ Covers o a res d f h w r0 c0 ∧
      ∀ b r c r' c' : ℕ, ∀ p q : K, 1 ≤ b → b ≤ o.count → r < h → c < w → r' + 1 < F.h → c' + 1 < F.w →
        SeesAt o a res d (r0 + r) (c0 + c) (c' + 1 / 2) r' → (∀ r c, conv dtype (F.val b r c) ≠ none) →
        F.hasData b r' c' = false → conv dtype (F.val b r' c') = some p → F.hasData b r' (c' + 1) = true → conv dtype (F.val b r' (c' + 1)) = some q →
        f.im.data b r c = some ((p + q) / 2) := by
  obtain ⟨res, dtype, nd, f, d, hh, w, r0, c0, h1, h2, h3, h4, -, -, -, -, h9⟩ :=
    C82_pixels o a m fs fs' fault hi hnan ho path hn (by tauto) h
  refine ⟨res, dtype, nd, f, d, hh, w, r0, c0, h1, h2, h3, h4, ?_⟩
  intro b r c r' c' p q hb1 hb2 hr1 hc1 hr2 hc2 hs hall _ hp _ hq
  rw [h9 b r c hb1 hb2 hr1 hc1, ground_sees hu (f := .linear) (by rw [hin]; rfl) hs,
    hr (readBand conv F dtype b) r' c' p q hr2 hc2 hp hq (hall _ _) (hall _ _)]
  rfl

/-! ## Examples -/

theorem nearest0 : NearestOk (remap0 (K := ℚ)) := by
  intro src j i r c hr hc hj hi
  have round_eq : ∀ (x : ℚ) (n : ℕ), |x - n| < 1 / 2 → round x = n := by
    intro x n h
    rw [abs_lt] at h
    rw [round_eq, Int.floor_eq_iff]
    push_cast
    constructor <;> linarith
  show nearestPix src j i = _
  unfold nearestPix
  rw [round_eq j c hj, round_eq i r hi]
  rw [if_pos (by simp [hr, hc])]
  simp

theorem linear0 : LinearOk (remap0 (K := ℚ)) := by
  intro src r c p q hr hc hp hq h1 h2
  show bilinear src _ _ = _
  unfold bilinear
  have e1 : ⌊((c : ℚ) + 1 / 2)⌋ = c := by rw [Int.floor_eq_iff]; push_cast; constructor <;> linarith
  have e2 : ⌊(r : ℚ)⌋ = r := by simp
  obtain ⟨x, hx⟩ := Option.ne_none_iff_exists'.1 h1
  obtain ⟨y, hy⟩ := Option.ne_none_iff_exists'.1 h2
  rw [e1, e2, if_pos (by simp [hr, hc])]
  simp [hp, hq, hx, hy]
  ring

/-- A source file with two bands; band `b` of pixel (`r`, `c`) is `v` where there are no data, in column 7, and 100 + `b` elsewhere. -/
def holes (v : ℚ) : SrcFile ℚ := ⟨10, 10, fun b _ c => if c = 7 then v else 100 + b, fun _ _ c => decide (c ≠ 7)⟩

/-- `coarse` with this source file, and the camera moved by `s` columns. -/
def holesObj (v s : ℚ) : Obj ℚ (Img ℚ) := { coarse (fun _ _ => 0) with
  cam := fun f => { (coarse fun _ _ => 0).cam f with
    w2p := fun x y z => match x, y, z with
      | some x, some y, some _ => (some ((x - 103) * 5 / 2 + 2 + s), some ((197 - y) * 5 / 2 + 2))
      | _, _, _ => (none, none) }
  read := fun dt _ b => readBand (fun _ v => some v) (holes v) dt b }

theorem holes_uses (v s : ℚ) : Uses (holesObj v s) remap0 none (fun _ => some 0) (readBand (fun _ v => some v) (holes v)) where
  same := fun _ _ => ⟨rfl, rfl⟩
  samp := by intro s f h; simp [holesObj, coarse, h]
  read := fun _ _ _ _ _ => rfl

theorem holes_infoOk (v s : ℚ) : InfoOk (holesObj v s) := ⟨demo_infoOk.height, demo_infoOk.width, demo_infoOk.block⟩

theorem holes_nan (v s : ℚ) : (holesObj v s).NanUnseen := by
  intro interp dtype b x y
  have hn : ∀ src : Img ℚ, nearestPix src (-1) (-1) = none := by
    intro src
    unfold nearestPix
    rw [if_neg]
    have : round (-1 : ℚ) = -1 := by decide +kernel
    rw [this]
    simp
  have hb : ∀ src : Img ℚ, bilinear src (-1) (-1) = none := by
    intro src
    unfold bilinear
    rw [if_neg]
    have : ⌊(-1 : ℚ)⌋ = -1 := by decide +kernel
    rw [this]
    simp
  show (match toCv interp with
    | .ok f => remap0 f
    | .error _ => fun _ _ _ => none) (readBand (fun _ v => some v) (holes v) dtype b) (-1) (-1) = none
  cases toCv interp with
  | error e => rfl
  | ok f => cases f <;> simp only [remap0, hn, hb]

def holesArgs (interp : String) : Args ℚ := { demoArgs with interp := interp, resolution := some (2, 2) }

theorem holes_completes (v s : ℚ) (interp : String) (hi : interp ∈ ["nearest", "average", "bilinear", "cubic", "lanczos"]) :
    ∃ fs', Process (holesObj v s) (holesArgs interp) demoMem (fun _ => none) none fs' (.ok ()) := by
  have hr := demo_ready
  have hopt : ∀ k ∈ ["driver", "dtype", "width", "height", "count"], Dict.get? demoArgs.opts k = none := by decide
  exact (C82_completes (holesObj v s) (holesArgs interp) demoMem (fun _ => none) (holes_infoOk v s) ⟨by simp [Dict.Ok, holesArgs, demoArgs], hopt⟩
    "ortho.tif" (2, 2) "uint8" (Or.inl rfl) (Or.inr ⟨Or.inl rfl, rfl⟩) ⟨rfl, hr.demInterp, hr.bounds, hr.view, hr.profile⟩
    ⟨Or.inl rfl, Or.inr rfl⟩ hi (show 10 < 32767 ∧ 10 < 32767 by decide) demo_small).1

/-- The ortho of the example begins at pixel (1, 1) of the DEM, and the camera sees the pixel in its row 0 and column 1 at row 2 and column 7 + `s` of the
source. -/
theorem holes_place {v s : ℚ} {interp : String} {res : ℚ × ℚ} {dtype : String} {nd : Pix ℚ} {f : OrthoFile ℚ} {d : DemOut ℚ} {h w r0 c0 : ℕ}
    (h2 : Choice (holesObj v s) (holesArgs interp) res dtype nd)
    (h3 : DemAt (holesObj v s).dem (holesObj v s).crsEqual ((holesObj v s).call (holesArgs interp).demInterp res) demoMem d)
    (h4 : Covers (holesObj v s) (holesArgs interp) res d f h w r0 c0) :
    nd = some 0 ∧ 0 < h ∧ 1 < w ∧ SeesAt (holesObj v s) (holesArgs interp) res d (r0 + 0) (c0 + 1) (7 + s) 2 := by
  obtain rfl : res = (2, 2) := by
    rcases h2.resolution with e | e
    · cases e; rfl
    · cases e.1
  obtain rfl : dtype = "uint8" := by
    rcases h2.type with e | e
    · cases e.1
    · exact e.2
  obtain rfl : nd = some 0 := by
    rcases h2.nodata with e | e | e
    · exact e.2
    · exact absurd e.1 (by decide)
    · exact absurd e.1 (by decide)
  obtain rfl := demo_demAt h3 rfl
  have q1 := h4.all 1 (by decide) 2 (by decide) ((demo_inView 1 2).2 (by decide))
  have q2 := h4.all 2 (by decide) 1 (by decide) ((demo_inView 2 1).2 (by decide))
  have q3 := h4.all 2 (by decide) 2 (by decide) ((demo_inView 2 2).2 (by decide))
  obtain ⟨⟨j1, -, t1⟩, -, ⟨i1, -, t2⟩, -⟩ := h4.tight
  replace t1 := (demo_inView _ _).1 t1
  replace t2 := (demo_inView _ _).1 t2
  obtain rfl : r0 = 1 := by omega
  obtain rfl : c0 = 1 := by omega
  refine ⟨rfl, by omega, by omega, (demo_inView 1 2).2 (by decide), 7 + s, 2, ?_, rfl, rfl⟩
  simp [holesObj, holesArgs, demoMask, Affine.apply]
  norm_num

/-- A source with nodata value 255: the pixel of the ortho, at which there are no data in the source, is 255 and valid. -/
example : ∃ f r c, (∃ fs', Process (holesObj 255 0) (holesArgs "nearest") demoMem (fun _ => none) none fs' (.ok ()) ∧ fs' "ortho.tif" = some f) ∧
    (holes 255).hasData 1 2 7 = false ∧ f.im.valid r c = true := by
  obtain ⟨fs', h⟩ := holes_completes 255 0 "nearest" (by decide)
  obtain ⟨res, dtype, nd, f, d, hh, w, r0, c0, h1, h2, h3, h4, h5⟩ := C114_fails (holesObj 255 0) remap0 nearest0 _ _ (holes 255) (holes_uses 255 0)
    (holesArgs "nearest") rfl rfl rfl demoMem _ fs' none (holes_infoOk _ _) (holes_nan _ _) ⟨by simp [Dict.Ok, holesArgs, demoArgs], by decide⟩
    "ortho.tif" (Or.inl rfl) h
  obtain ⟨rfl, k1, k2, k3⟩ := holes_place h2 h3 h4
  refine ⟨f, 0, 1, ⟨fs', h, by rw [h1]; exact if_pos rfl⟩, rfl, ?_⟩
  refine h5 1 0 1 2 7 _ _ le_rfl (by decide) k1 k2 (by decide) (by decide) k3 (by norm_num) (by norm_num) rfl (by simp [holes])

/-- `C114_nearest` says that value. -/
example : ∃ f r c, (∃ fs', Process (holesObj 255 0) (holesArgs "nearest") demoMem (fun _ => none) none fs' (.ok ()) ∧ fs' "ortho.tif" = some f) ∧
    f.im.data 1 r c = some 255 := by
  obtain ⟨fs', h⟩ := holes_completes 255 0 "nearest" (by decide)
  obtain ⟨res, dtype, nd, f, d, hh, w, r0, c0, h1, h2, h3, h4, h5⟩ := C114_nearest (holesObj 255 0) remap0 nearest0 _ _ (holes 255) (holes_uses 255 0)
    (holesArgs "nearest") rfl demoMem _ fs' none (holes_infoOk _ _) (holes_nan _ _) ⟨by simp [Dict.Ok, holesArgs, demoArgs], by decide⟩
    "ortho.tif" (Or.inl rfl) h
  obtain ⟨rfl, k1, k2, k3⟩ := holes_place h2 h3 h4
  refine ⟨f, 0, 1, ⟨fs', h, by rw [h1]; exact if_pos rfl⟩, ?_⟩
  rw [h5 1 0 1 2 7 _ _ le_rfl (by decide) k1 k2 (by decide) (by decide) k3 (by norm_num) (by norm_num)]
  simp [holes]

/-- A source with nodata value 0: the pixel is not valid. -/
example : ∃ f r c, (∃ fs', Process (holesObj 0 0) (holesArgs "nearest") demoMem (fun _ => none) none fs' (.ok ()) ∧ fs' "ortho.tif" = some f) ∧
    f.im.valid r c = false := by
  obtain ⟨fs', h⟩ := holes_completes 0 0 "nearest" (by decide)
  obtain ⟨res, dtype, nd, f, d, hh, w, r0, c0, h1, h2, h3, h4, h5⟩ := C114_partial (holesObj 0 0) remap0 nearest0 _ _ (holes 0) (holes_uses 0 0)
    (holesArgs "nearest") rfl rfl rfl (by decide) demoMem _ fs' none (holes_infoOk _ _) (holes_nan _ _)
    ⟨by simp [Dict.Ok, holesArgs, demoArgs], by decide⟩ "ortho.tif" (Or.inl rfl) (by
      intro res dtype nd hch b r c _ _ _ _
      obtain rfl : dtype = "uint8" := by
        rcases hch.type with e | e
        · cases e.1
        · exact e.2
      obtain rfl : nd = some 0 := by
        rcases hch.nodata with e | e | e
        · exact e.2
        · exact absurd e.1 (by decide)
        · exact absurd e.1 (by decide)
      have : (0 : ℚ) ≤ b := Nat.cast_nonneg b
      by_cases hc : c = 7
      · simp [holes, hc]
      · simp only [holes, hc, if_false]
        have : (100 : ℚ) + b ≠ 0 := by linarith
        simp [this, hc]) h
  obtain ⟨rfl, k1, k2, k3⟩ := holes_place h2 h3 h4
  refine ⟨f, 0, 1, ⟨fs', h, by rw [h1]; exact if_pos rfl⟩, ?_⟩
  have := h5 0 1 2 7 _ _ k1 k2 (by decide) (by decide) k3 (by norm_num) (by norm_num)
  rw [Bool.eq_false_iff, ne_eq, this]
  simp [holes]

/-- A source with nodata value 0 and `bilinear` interpolation: between the pixel without data and one of 101 the ortho is 101 / 2. -/
example : ∃ f r c, (∃ fs', Process (holesObj 0 (1 / 2)) (holesArgs "bilinear") demoMem (fun _ => none) none fs' (.ok ()) ∧ fs' "ortho.tif" = some f) ∧
    f.im.data 1 r c = some (101 / 2) := by
  obtain ⟨fs', h⟩ := holes_completes 0 (1 / 2) "bilinear" (by decide)
  obtain ⟨res, dtype, nd, f, d, hh, w, r0, c0, h1, h2, h3, h4, h5⟩ := C114_blend_fails (holesObj 0 (1 / 2)) remap0 linear0 _ _ (holes 0)
    (holes_uses 0 (1 / 2)) (holesArgs "bilinear") rfl (.inr (.inl rfl)) demoMem _ fs' none (holes_infoOk _ _) (holes_nan _ _)
    ⟨by simp [Dict.Ok, holesArgs, demoArgs], by decide⟩ "ortho.tif" (Or.inl rfl) h
  obtain ⟨rfl, k1, k2, k3⟩ := holes_place h2 h3 h4
  refine ⟨f, 0, 1, ⟨fs', h, by rw [h1]; exact if_pos rfl⟩, ?_⟩
  rw [h5 1 0 1 2 7 0 101 le_rfl (by decide) k1 k2 (by decide) (by decide) (by exact_mod_cast k3) (by simp) rfl (by simp [holes]) rfl
    (by simp [holes]; norm_num)]
  norm_num

end Verif.OrthoProcess.Interpolate
