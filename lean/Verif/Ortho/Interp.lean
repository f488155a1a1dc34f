import Verif.Ortho.Process

/-!
# C113: interpolation types

`Interp.average` is documented to "average input pixels over the corresponding output pixel area (suited to downsampling)"
(orthority/enums.py:87-88).  Orthos are made with `cv2.remap`, which knows no areas.
-/

set_option autoImplicit false

namespace Verif.OrthoProcess.Interpolate

open Verif.Ortho Verif.Common Verif.Files Verif.Dem

/-! ## Model -/

/-- OpenCV interpolation types. -/
inductive CvInterp
  | nearest | linear | cubic | area | lanczos4
  deriving DecidableEq

/-- `Interp[interp].to_cv()`, orthority/enums.py:96-105 and camera.py:391. -/
def toCv : String → Res CvInterp
  | "average" => .ok .area
  | "bilinear" => .ok .linear
  | "cubic" => .ok .cubic
  | "lanczos" => .ok .lanczos4
  | "nearest" => .ok .nearest
  | _ => .error .keyError

variable {K : Type} [Field K] [LinearOrder K]

/-- A band of a source image. -/
structure Img (K : Type) where
  h : ℕ
  w : ℕ
  get : ℕ → ℕ → Pix K

/-- `cv2.remap` of a band at a position (column, row), with `BORDER_TRANSPARENT`: `none` when OpenCV leaves the destination as it was. -/
abbrev CvRemap (K : Type) := CvInterp → Img K → K → K → Option (Pix K)

/-- How far (in pixels, along each axis) source pixels can be from the position that is sampled: half a pixel, one, two and four pixels for
the kernels of OpenCV, and less than one more for the rounding of positions to 1/32 pixel. -/
def reach : CvInterp → K
  | .nearest => 1
  | .linear => 2
  | .area => 2
  | .cubic => 3
  | .lanczos4 => 5

/-- What OpenCV documents of `cv2.remap`: `INTER_AREA` is not supported (the code takes `INTER_LINEAR` for it), and the other types use the
pixels under a kernel of fixed size. -/
structure Documented (remap : CvRemap K) : Prop where
  area : ∀ src j i, remap .area src j i = remap .linear src j i
  near : ∀ f src src' j i, src.h = src'.h → src.w = src'.w →
    (∀ r c : ℕ, |(c : K) - j| < reach f → |(r : K) - i| < reach f → src.get r c = src'.get r c) → remap f src j i = remap f src' j i

/-- What `Camera.read` gives (orthority/camera.py:311-317 and 1051-1057): the band of the source image as the data type, or the band undistorted
with the maps of the camera (lines 922-938), onto `nodata`. -/
def readWith (remap : CvRemap K) (maps : Option (ℕ → ℕ → K × K)) (nodata : Pix K) (raw : Img K) (f : CvInterp) : Img K :=
  match maps with
  | none => raw
  | some loc => ⟨raw.h, raw.w, fun i j => (remap f raw (loc i j).1 (loc i j).2).getD nodata⟩

variable [IsStrictOrderedRing K] [FloorRing K]

/-- The functions of an `Ortho` object are those of OpenCV, with the type that `to_cv` gives (orthority/camera.py:386-395 and 929-936). -/
structure Uses (o : Obj K (Img K)) (remap : CvRemap K) (maps : Option (ℕ → ℕ → K × K)) (nodata : String → Pix K)
    (raw : String → ℕ → Img K) : Prop where
  same : ∀ s s', (o.cam s).w2p = (o.cam s').w2p ∧ (o.cam s).f32 = (o.cam s').f32
  samp : ∀ s f, toCv s = .ok f → (o.cam s).samp = remap f
  read : ∀ s f dt b, toCv s = .ok f → o.read dt s b = readWith remap maps (nodata dt) (raw dt b) f

/-! ## Specification -/

/-- Mean of the source pixels of `n` rows and columns from (`r0`, `c0`) on, which have no NaNs. -/
def blockMean (src : ℕ → ℕ → K) (r0 c0 n : ℕ) : K := (∑ r ∈ Finset.range n, ∑ c ∈ Finset.range n, src (r0 + r) (c0 + c)) / (n : K) ^ 2

/-! ## Theorems -/

omit [Field K] [LinearOrder K] [IsStrictOrderedRing K] [FloorRing K] in
theorem cam_eq {A B : Cam K (Img K)} (h1 : A.w2p = B.w2p) (h2 : A.f32 = B.f32) (h3 : A.samp = B.samp) : A = B := by
  cases A; cases B; simp only at h1 h2 h3; subst h1 h2 h3; rfl

omit [IsStrictOrderedRing K] in
/-- C113 fails: for every image, DEM and camera, `average` makes the same ortho as `bilinear`. -/
theorem C113_average_same_fails (o : Obj K (Img K)) (remap : CvRemap K) (hr : Documented remap) (maps : Option (ℕ → ℕ → K × K))
    (nodata : String → Pix K) (raw : String → ℕ → Img K) (hu : Uses o remap maps nodata raw) (a b : Args K) (ha : a.interp = "average")
    (hb : b = { a with interp := "bilinear" }) (m : Mem K) (fs fs' : FS (OrthoFile K)) (fault : Option (Fault (OrthoFile K))) (res : Res Unit) :
    Process o a m fs fault fs' res ↔ Process o b m fs fault fs' res := by
  have hcam : o.cam "average" = o.cam "bilinear" := by
    refine cam_eq (hu.same _ _).1 (hu.same _ _).2 ?_
    rw [hu.samp "average" .area rfl, hu.samp "bilinear" .linear rfl]
    funext src j i
    exact hr.area src j i
  have hread : ∀ dt, o.read dt "average" = o.read dt "bilinear" := by
    intro dt
    funext b
    rw [hu.read "average" .area dt b rfl, hu.read "bilinear" .linear dt b rfl]
    unfold readWith
    cases maps with
    | none => rfl
    | some loc => simp only [hr.area]
  have hprep : prepare o a m = prepare o b m := by subst hb; rfl
  have hin : ∀ d p wm, remapIn o a d p wm = remapIn o b d p wm := by
    intro d p wm
    subst hb
    unfold remapIn
    have e1 : dtypeOf o { a with interp := "bilinear" } = dtypeOf o a := rfl
    have e2 : nodataFor o { a with interp := "bilinear" } = nodataFor o a := rfl
    simp only [ha, hcam, hread, e1, e2]
    rfl
  have hfile : a.file = b.file ∧ a.overwrite = b.overwrite ∧ a.perBand = b.perBand ∧ a.buildOvw = b.buildOvw := by
    subst hb; exact ⟨rfl, rfl, rfl, rfl⟩
  have hov : ∀ d, overviewsOf a d = overviewsOf b d := by subst hb; exact fun d => rfl
  have hai : a.interp ∈ interps := by rw [ha]; decide
  have hbi : b.interp ∈ interps := by rw [hb]; show "bilinear" ∈ interps; decide
  obtain ⟨h1, h2, h3, h4⟩ := hfile
  constructor
  · intro h
    cases h with
    | before h => exact .before (hprep ▸ h)
    | refused h h' => exact .refused (hprep ▸ h) (by rwa [← h1, ← h2])
    | fault h h' hf => exact .fault (hprep ▸ h) (by rwa [← h1, ← h2]) hf
    | interp h h' hf hi => exact absurd hai hi
    | stopped left h h' hf hi hm hmo => exact .stopped left (hprep ▸ h) (by rwa [← h1, ← h2]) hf hbi (by rwa [← hin, ← h3]) (by rwa [← hin, ← h3])
    | done h h' hf hi hm => rw [hov]; exact .done (hprep ▸ h) (by rwa [← h1, ← h2]) hf hbi (by rwa [← hin, ← h3])
  · intro h
    cases h with
    | before h => exact .before (hprep ▸ h)
    | refused h h' => exact .refused (hprep ▸ h) (by rwa [h1, h2])
    | fault h h' hf => exact .fault (hprep ▸ h) (by rwa [h1, h2]) hf
    | interp h h' hf hi => exact absurd hbi hi
    | stopped left h h' hf hi hm hmo => exact .stopped left (hprep ▸ h) (by rwa [h1, h2]) hf hai (by rwa [hin, h3]) (by rwa [hin, h3])
    | done h h' hf hi hm => rw [← hov]; exact .done (hprep ▸ h) (by rwa [h1, h2]) hf hai (by rwa [hin, h3])

omit [IsStrictOrderedRing K] [FloorRing K] in
/-- C113: whatever the interpolation type, and for cameras that do not undistort their images, the sample of an ortho pixel depends on the source pixels
near the position where the camera sees the centre of the ortho pixel, and no others: within one pixel for `nearest`, two for `bilinear` and
`average`, three for `cubic` and five for `lanczos`. -/
theorem C113_near (o o' : Obj K (Img K)) (remap : CvRemap K) (hr : Documented remap) (nodata nodata' : String → Pix K)
    (raw raw' : String → ℕ → Img K) (hu : Uses o remap none nodata raw) (hu' : Uses o' remap none nodata' raw') (interp dtype : String) (n : ℕ)
    (hn : (interp, n) ∈ [("nearest", 1), ("average", 2), ("bilinear", 2), ("cubic", 3), ("lanczos", 5)])
    (b : ℕ) (x y : K) (z : Pix K) (j i : K)
    (hw : (o.cam interp).w2p (some x) (some y) z = (some j, some i)) (hw' : (o'.cam interp).w2p (some x) (some y) z = (some j, some i))
    (hf : (o'.cam interp).f32 = (o.cam interp).f32) (hsz : (raw dtype b).h = (raw' dtype b).h ∧ (raw dtype b).w = (raw' dtype b).w)
    (hpix : ∀ r c : ℕ, |(c : K) - (o.cam interp).f32 j| < n → |(r : K) - (o.cam interp).f32 i| < n → (raw dtype b).get r c = (raw' dtype b).get r c) :
    o.seen interp dtype b x y z = o'.seen interp dtype b x y z := by
  have key : ∃ f, toCv interp = .ok f ∧ (reach f : K) = n := by
    simp only [List.mem_cons, Prod.mk.injEq, List.not_mem_nil, or_false] at hn
    rcases hn with ⟨rfl, rfl⟩ | ⟨rfl, rfl⟩ | ⟨rfl, rfl⟩ | ⟨rfl, rfl⟩ | ⟨rfl, rfl⟩
    exacts [⟨_, rfl, by simp [reach]⟩, ⟨_, rfl, by simp [reach]⟩, ⟨_, rfl, by simp [reach]⟩, ⟨_, rfl, by simp [reach]⟩, ⟨_, rfl, by simp [reach]⟩]
  obtain ⟨f, hcv, hreach⟩ := key
  simp only [Obj.seen, hw, hw', hf, Option.getD_some, hu.samp _ _ hcv, hu'.samp _ _ hcv, hu.read _ _ _ _ hcv, hu'.read _ _ _ _ hcv, readWith]
  exact hr.near f _ _ _ _ hsz.1 hsz.2 (by rw [hreach]; exact hpix)

omit [FloorRing K] in
/-- C113 fails: `average` does not average.  For ortho pixels that cover a square of five by five source pixels or more, there is a source image
(without NaNs) for which the sample is not the mean over the square, although the camera sees the centre of the ortho pixel at the centre of the
square. -/
theorem C113_average_fails (remap : CvRemap K) (hr : Documented remap) (n r0 c0 h w : ℕ) (hn : 5 ≤ n) :
    ∃ src : ℕ → ℕ → K, ∀ (o : Obj K (Img K)) (nodata : String → Pix K) (raw : String → ℕ → Img K), Uses o remap none nodata raw →
      ∀ (dtype : String) (b : ℕ) (x y : K) (z : Pix K), raw dtype b = ⟨h, w, fun r c => some (src r c)⟩ →
        (o.cam "average").w2p (some x) (some y) z = (some ((c0 : K) + ((n : K) - 1) / 2), some ((r0 : K) + ((n : K) - 1) / 2)) →
        (o.cam "average").f32 ((c0 : K) + ((n : K) - 1) / 2) = (c0 : K) + ((n : K) - 1) / 2 →
        (o.cam "average").f32 ((r0 : K) + ((n : K) - 1) / 2) = (r0 : K) + ((n : K) - 1) / 2 →
        o.seen "average" dtype b x y z ≠ some (some (blockMean src r0 c0 n)) := by
  have hn5 : (5 : K) ≤ n := by exact_mod_cast hn
  have seenEq : ∀ (src : ℕ → ℕ → K) (o : Obj K (Img K)) (nodata : String → Pix K) (raw : String → ℕ → Img K), Uses o remap none nodata raw →
      ∀ (dtype : String) (b : ℕ) (x y : K) (z : Pix K), raw dtype b = ⟨h, w, fun r c => some (src r c)⟩ →
        (o.cam "average").w2p (some x) (some y) z = (some ((c0 : K) + ((n : K) - 1) / 2), some ((r0 : K) + ((n : K) - 1) / 2)) →
        (o.cam "average").f32 ((c0 : K) + ((n : K) - 1) / 2) = (c0 : K) + ((n : K) - 1) / 2 →
        (o.cam "average").f32 ((r0 : K) + ((n : K) - 1) / 2) = (r0 : K) + ((n : K) - 1) / 2 →
        o.seen "average" dtype b x y z = remap .area ⟨h, w, fun r c => some (src r c)⟩ ((c0 : K) + ((n : K) - 1) / 2) ((r0 : K) + ((n : K) - 1) / 2) := by
    intro src o nodata raw hu dtype b x y z hraw hw hj hi
    simp only [Obj.seen, hw, Option.getD_some, hj, hi, hu.samp "average" .area rfl, hu.read "average" .area _ _ rfl, readWith, hraw]
  let pulse : ℕ → ℕ → K := fun r c => if r = r0 ∧ c = c0 then 1 else 0
  have hmean0 : blockMean (fun _ _ => (0 : K)) r0 c0 n = 0 := by simp [blockMean]
  have hmean1 : blockMean pulse r0 c0 n ≠ 0 := by
    have : (∑ r ∈ Finset.range n, ∑ c ∈ Finset.range n, pulse (r0 + r) (c0 + c)) = 1 := by
      rw [Finset.sum_eq_single 0, Finset.sum_eq_single 0]
      · simp [pulse]
      · intro c _ hc; simp [pulse, hc]
      · intro h0; exact absurd (Finset.mem_range.2 (by omega)) h0
      · intro r _ hr0; exact Finset.sum_eq_zero fun c _ => by simp [pulse, hr0]
      · intro h0; exact absurd (Finset.mem_range.2 (by omega)) h0
    rw [blockMean, this]
    have : (0 : K) < n := by linarith
    positivity
  have hsame : remap .area ⟨h, w, fun r c => some (pulse r c)⟩ ((c0 : K) + ((n : K) - 1) / 2) ((r0 : K) + ((n : K) - 1) / 2) =
      remap .area ⟨h, w, fun _ _ => some (0 : K)⟩ ((c0 : K) + ((n : K) - 1) / 2) ((r0 : K) + ((n : K) - 1) / 2) := by
    refine hr.near _ _ _ _ _ rfl rfl ?_
    intro r c hc hrr
    show some (pulse r c) = some 0
    simp only [pulse]
    rw [if_neg]
    rintro ⟨rfl, rfl⟩
    simp only [reach, abs_lt] at hc
    linarith [hc.1]
  by_cases h0 : remap .area ⟨h, w, fun _ _ => some (0 : K)⟩ ((c0 : K) + ((n : K) - 1) / 2) ((r0 : K) + ((n : K) - 1) / 2) = some (some 0)
  · refine ⟨pulse, fun o nodata raw hu dtype b x y z hraw hw hj hi => ?_⟩
    rw [seenEq pulse o nodata raw hu dtype b x y z hraw hw hj hi, hsame, h0]
    intro he
    exact hmean1 (Option.some.inj (Option.some.inj he)).symm
  · refine ⟨fun _ _ => 0, fun o nodata raw hu dtype b x y z hraw hw hj hi => ?_⟩
    rw [seenEq _ o nodata raw hu dtype b x y z hraw hw hj hi, hmean0]
    exact h0

/-! ## Examples -/

/-- Bilinear interpolation between four pixels that are in the image. -/
def bilinear (src : Img K) (j i : K) : Option (Pix K) :=
  if 0 ≤ ⌊j⌋ ∧ 0 ≤ ⌊i⌋ ∧ ⌊j⌋.toNat + 1 < src.w ∧ ⌊i⌋.toNat + 1 < src.h then
    some (do
      let p ← src.get ⌊i⌋.toNat ⌊j⌋.toNat
      let q ← src.get ⌊i⌋.toNat (⌊j⌋.toNat + 1)
      let u ← src.get (⌊i⌋.toNat + 1) ⌊j⌋.toNat
      let v ← src.get (⌊i⌋.toNat + 1) (⌊j⌋.toNat + 1)
      let fj := j - ⌊j⌋
      let fi := i - ⌊i⌋
      pure ((1 - fi) * ((1 - fj) * p + fj * q) + fi * ((1 - fj) * u + fj * v)))
  else none

/-- Nearest neighbour. -/
def nearestPix (src : Img K) (j i : K) : Option (Pix K) :=
  if 0 ≤ round j ∧ 0 ≤ round i ∧ (round j).toNat < src.w ∧ (round i).toNat < src.h then some (src.get (round i).toNat (round j).toNat) else none

/-- A `cv2.remap` with nearest and linear interpolation, and linear in place of the rest. -/
def remap0 : CvRemap K
  | .nearest => nearestPix
  | _ => bilinear

theorem near_floor {j : K} (h : 0 ≤ ⌊j⌋) {c : ℕ} (hc : c = ⌊j⌋.toNat ∨ c = ⌊j⌋.toNat + 1) : |(c : K) - j| < 2 := by
  have h1 : ((⌊j⌋.toNat : ℕ) : K) = ((⌊j⌋ : ℤ) : K) := by
    have : ((⌊j⌋.toNat : ℕ) : ℤ) = ⌊j⌋ := Int.toNat_of_nonneg h
    exact_mod_cast congrArg (Int.cast : ℤ → K) this
  have h2 := Int.floor_le j
  have h3 := Int.lt_floor_add_one j
  rw [abs_lt]
  rcases hc with rfl | rfl
  · rw [h1]; constructor <;> linarith
  · push_cast; rw [h1]; constructor <;> linarith

theorem documented0 : Documented (remap0 (K := K)) where
  area := fun _ _ _ => rfl
  near := by
    intro f src src' j i hh hw hp
    have lin : (2 : K) ≤ reach f → bilinear src j i = bilinear src' j i := by
      intro hf
      unfold bilinear
      rw [hh, hw]
      split_ifs with h
      · have e : ∀ r c, (r = ⌊i⌋.toNat ∨ r = ⌊i⌋.toNat + 1) → (c = ⌊j⌋.toNat ∨ c = ⌊j⌋.toNat + 1) → src.get r c = src'.get r c :=
          fun r c hr hc => hp r c (lt_of_lt_of_le (near_floor h.1 hc) hf) (lt_of_lt_of_le (near_floor h.2.1 hr) hf)
        rw [e _ _ (.inl rfl) (.inl rfl), e _ _ (.inl rfl) (.inr rfl), e _ _ (.inr rfl) (.inl rfl), e _ _ (.inr rfl) (.inr rfl)]
      · rfl
    cases f with
    | nearest =>
      show nearestPix src j i = nearestPix src' j i
      unfold nearestPix
      rw [hh, hw]
      split_ifs with h
      · have e : ∀ t : K, 0 ≤ round t → |(((round t).toNat : ℕ) : K) - t| < 1 := by
          intro t ht
          have h1 : (((round t).toNat : ℕ) : K) = ((round t : ℤ) : K) := by
            have : (((round t).toNat : ℕ) : ℤ) = round t := Int.toNat_of_nonneg ht
            exact_mod_cast congrArg (Int.cast : ℤ → K) this
          rw [h1, abs_sub_comm]
          exact lt_of_le_of_lt (abs_sub_round t) (by norm_num)
        rw [hp _ _ (e j h.1) (e i h.2.1)]
      · rfl
    | linear => exact lin (by simp [reach])
    | area => exact lin (by simp [reach])
    | cubic => exact lin (by norm_num [reach])
    | lanczos4 => exact lin (by norm_num [reach])

/-- The example of C82, with ortho pixels that cover 5 by 5 pixels of an image of 10 by 10 pixels: pixel (1, 1) of the DEM covers those of rows and
columns 0 to 4. -/
def coarse (src : ℕ → ℕ → ℚ) : Obj ℚ (Img ℚ) where
  cam s := {
    w2p := fun x y z => match x, y, z with
      | some x, some y, some _ => (some ((x - 103) * 5 / 2 + 2), some ((197 - y) * 5 / 2 + 2))
      | _, _, _ => (none, none)
    f32 := id
    samp := match toCv s with
      | .ok f => remap0 f
      | .error _ => fun _ _ _ => none }
  frame := true
  distort := true
  pinhole := false
  read _ _ b := ⟨10, 10, fun r c => some (src r c + b)⟩
  srcErr := none
  srcH := 10
  srcW := 10
  count := 2
  srcDtype := "uint8"
  colors := ["red", "green"]
  dem := demoObj.dem
  crsEqual := true
  gsd := 2 / 5
  crs := "EPSG:32735"
  orthoSize := (8, 6)
  reproject _ _ d := d
  poly := demoObj.poly
  fillPoly := demoObj.fillPoly
  info := demoObj.info
  blank := demoObj.blank

def coarseRaw (src : ℕ → ℕ → ℚ) : String → ℕ → Img ℚ := fun _ b => ⟨10, 10, fun r c => some (src r c + b)⟩

theorem coarse_uses (src : ℕ → ℕ → ℚ) : Uses (coarse src) remap0 none (fun _ => some 0) (coarseRaw src) where
  same := fun _ _ => ⟨rfl, rfl⟩
  samp := by intro s f h; simp [coarse, h]
  read := fun _ _ _ _ _ => rfl

/-- `average` and `bilinear` make the same ortho of any such image. -/
example (src : ℕ → ℕ → ℚ) (fs fs' : FS (OrthoFile ℚ)) (res : Res Unit) :
    Process (coarse src) { demoArgs with interp := "average" } demoMem fs none fs' res ↔
      Process (coarse src) { demoArgs with interp := "bilinear" } demoMem fs none fs' res :=
  C113_average_same_fails (coarse src) remap0 documented0 none _ _ (coarse_uses src) _ _ rfl rfl demoMem fs fs' none res

/-- An image whose pixel (0, 0) is 100 times as bright as the rest has the sample of one that does not. -/
example : (coarse fun r c => if r = 0 ∧ c = 0 then 100 else 1).seen "average" "uint8" 1 103 197 (some 7) =
    (coarse fun _ _ => 1).seen "average" "uint8" 1 103 197 (some 7) := by
  refine C113_near _ _ remap0 documented0 _ _ _ _ (coarse_uses _) (coarse_uses _) "average" "uint8" 2 (by decide) 1 103 197 (some 7) 2 2
    (by simp [coarse]) (by simp [coarse]) rfl ⟨rfl, rfl⟩ ?_
  intro r c hc hr
  have : ¬ (r = 0 ∧ c = 0) := by
    rintro ⟨rfl, rfl⟩
    simp [coarse] at hc
  simp [coarseRaw, this]

/-- That image is a case in which the sample is not the mean: it is 2, and the mean is 149/25. -/
example : (coarse fun r c => if r = 0 ∧ c = 0 then 100 else 1).seen "average" "uint8" 1 103 197 (some 7) = some (some 2) ∧
    blockMean (fun r c => (if r = 0 ∧ c = 0 then 100 else 1) + (1 : ℚ)) 0 0 5 = 149 / 25 := by
  constructor <;> decide +kernel

/-- `C113_average_fails` for these objects. -/
example : ∃ src : ℕ → ℕ → ℚ, (coarse fun r c => src r c - 1).seen "average" "uint8" 1 103 197 (some 7) ≠ some (some (blockMean src 0 0 5)) := by
  obtain ⟨src, h⟩ := C113_average_fails (K := ℚ) remap0 documented0 5 0 0 10 10 le_rfl
  refine ⟨src, h _ _ _ (coarse_uses _) "uint8" 1 103 197 (some 7) ?_ ?_ rfl rfl⟩
  · simp [coarseRaw]
  · simp only [coarse]; norm_num

end Verif.OrthoProcess.Interpolate
