import Verif.Ortho.Faults
import Verif.Dem.Mask
import Verif.Common.Props
import Verif.Files.Model

/-!
# C82: `Ortho.process` from start to end
-/

set_option autoImplicit false
set_option linter.unusedSectionVars false

namespace Verif.OrthoProcess

open Verif.Ortho Verif.Dem Verif.Common Verif.Tiles Verif.Files

variable {K Src : Type} [Field K] [LinearOrder K] [IsStrictOrderedRing K] [FloorRing K]

/-! ## Model -/

/-- Values of `Interp`, orthority/enums.py:82-94.  `Interp(s)` of another string is a `ValueError`. -/
def interps : List String := ["nearest", "average", "bilinear", "cubic", "lanczos"]

/-- `_nodata_vals`, orthority/common.py:58-60. -/
def nodataOf : Dt → Pix K
  | .uint8 | .uint16 => some 0
  | .int16 => some (-32768)
  | .float32 | .float64 => none

/-- An `Ortho` object (orthority/ortho.py:85-105) and its source image.  `cam` is the camera with `cv2.remap` for an interpolation type;
`frame`, `distort` and `pinhole` say what kind of camera it is; `read dtype interp b` is band `b` as `Camera.read` gives it; `srcErr` is the
exception of opening the source image; `dem`, `crsEqual`, `gsd` and `crs` are `_dem_array` with its transform, `_dem_crs == _crs`, `_gsd` and `_crs`.
The functions are those of GDAL, rasterio and OpenCV: `orthoSize`, `reproject`, `poly` and `fillPoly` as in `Verif.Dem.Call`, by DEM interpolation and
resolution; `info` gives block shapes of a dataset from its profile; `blank` is a new image. Simplified: `world_boundary` on the DEM (C80)
does not fail. -/
structure Obj (K Src : Type) where
  cam : String → Cam K Src
  frame : Bool
  distort : Bool
  pinhole : Bool
  read : String → String → ℕ → Src
  srcErr : Option PyErr
  srcH : ℕ
  srcW : ℕ
  count : ℕ
  srcDtype : String
  colors : List String
  dem : DemRef K
  crsEqual : Bool
  gsd : K
  crs : String
  orthoSize : K × K
  reproject : String → K × K → DemOut K → DemOut K
  poly : String → DemOut K → List (K × K)
  fillPoly : ℕ → ℕ → List (ℤ × ℤ) → ℕ → ℕ → Bool
  info : Profile → ImInfo
  blank : OrthoIm K

/-- Arguments of `Ortho.process`, orthority/ortho.py:484-499. -/
structure Args (K : Type) where
  file : Target
  resolution : Option (K × K)
  interp : String
  demInterp : String
  perBand : Bool
  writeMask : Option Bool
  dtype : Option String
  compress : Option String
  buildOvw : Bool
  opts : Dict String PVal
  driver : String
  overwrite : Bool

/-- What an ortho image file holds: profile, CRS and transform, bands and mask, colour interpretation, overview factors. -/
structure OrthoFile (K : Type) where
  profile : Profile
  crs : String
  transform : Affine K
  im : OrthoIm K
  colors : List String
  ovw : List ℕ

/-- orthority/ortho.py:569-572: the resolution, which is the GSD by default. -/
def resolutionOf (o : Obj K Src) (a : Args K) : K × K := a.resolution.getD (o.gsd, o.gsd)

/-- The call of `_reproject_dem` and `_mask_dem` for the arguments. -/
def demCall (o : Obj K Src) (a : Args K) : Call K :=
  ⟨resolutionOf o a, o.orthoSize, o.reproject a.demInterp (resolutionOf o a), o.poly a.demInterp, o.fillPoly⟩

/-- `dtype or src_im.dtypes[0]`, orthority/ortho.py:599. -/
def dtypeOf (o : Obj K Src) (a : Args K) : String :=
  match a.dtype with
  | some s => if s = "" then o.srcDtype else s
  | none => o.srcDtype

/-- orthority/ortho.py:568-607, what is done before the ortho image is opened: open the source image, prepare the DEM, and make the profile. -/
def prepare (o : Obj K Src) (a : Args K) (m : Mem K) : Res (DemOut K × Profile × Bool) :=
  match o.srcErr with
  | some e => .error e
  | none =>
    if a.demInterp ∉ interps then .error .valueError
    else match (processDem o.dem o.crsEqual (demCall o a) m).1 with
      | .error e => .error e
      | .ok d => match createProfile a.driver o.count d.h d.w (dtypeOf o a) a.compress a.writeMask a.opts with
        | .error e => .error e
        | .ok (p, wm) => .ok (d, p, wm)

/-- `kernel_size`, orthority/ortho.py:378-381: (width, height). -/
def kernelSize (gsd : K) (t : Affine K) : ℕ × ℕ := ((max ⌈5 * gsd / |t.a|⌉ 3).toNat, (max ⌈5 * gsd / |t.e|⌉ 3).toNat)

/-- `common._nodata_vals[ortho_im.profile['dtype']]`, orthority/ortho.py:360 and 446. -/
def nodataFor (o : Obj K Src) (a : Args K) : Pix K :=
  match Dt.parse (dtypeOf o a) with
  | .ok dt => nodataOf dt
  | .error _ => none

/-- The inputs of `_remap`, orthority/ortho.py:616-625. -/
def remapIn (o : Obj K Src) (a : Args K) (d : DemOut K) (p : Profile) (wm : Bool) : RemapIn K Src where
  cam := o.cam a.interp
  mode := ⟨o.frame, o.distort, o.pinhole, decide (a.interp = "nearest")⟩
  kernel := kernelSize o.gsd d.t
  readBand := o.read (dtypeOf o a) a.interp
  srcH := o.srcH
  srcW := o.srcW
  count := o.count
  dem := ⟨d.h, d.w, d.arr⟩
  transform := d.t
  nodata := nodataFor o a
  out := o.info p
  writeMask := wm

/-- The new ortho image, orthority/ortho.py:608-614. -/
def created (o : Obj K Src) (d : DemOut K) (p : Profile) : OrthoFile K := ⟨p, o.crs, d.t, o.blank, o.colors, []⟩

/-- Overviews, orthority/ortho.py:627-628 and common.py:532-556. -/
noncomputable def overviewsOf (a : Args K) (d : DemOut K) : List ℕ := if a.buildOvw then overviewLevels d.h d.w 8 256 else []

/-- `Ortho.process`, orthority/ortho.py:484-631: the file systems and results that it may end with.  `fault` is an exception of GDAL while the
ortho image is opened.  After an exception of `_remap` the image is as it was at some moment (C85). -/
inductive Process (o : Obj K Src) (a : Args K) (m : Mem K) (fs : FS (OrthoFile K)) (fault : Option (Fault (OrthoFile K))) :
    FS (OrthoFile K) → Res Unit → Prop
  | before {e : PyErr} : prepare o a m = .error e → Process o a m fs fault fs (.error e)
  | refused {x : DemOut K × Profile × Bool} {e : PyErr} : prepare o a m = .ok x →
      openCheck fs "w" "wb" a.overwrite a.file = .error e → Process o a m fs fault fs (.error e)
  | fault {x : DemOut K × Profile × Bool} {path : String} {f : Fault (OrthoFile K)} : prepare o a m = .ok x →
      openCheck fs "w" "wb" a.overwrite a.file = .ok path → fault = some f →
      Process o a m fs fault (fs.put path f.left) (.error f.err)
  | interp {d : DemOut K} {p : Profile} {wm : Bool} {path : String} : prepare o a m = .ok (d, p, wm) →
      openCheck fs "w" "wb" a.overwrite a.file = .ok path → fault = none → a.interp ∉ interps →
      Process o a m fs fault (fs.put path (some (created o d p))) (.error .valueError)
  | stopped {d : DemOut K} {p : Profile} {wm : Bool} {path : String} {e : PyErr} (left : OrthoIm K) :
      prepare o a m = .ok (d, p, wm) → openCheck fs "w" "wb" a.overwrite a.file = .ok path → fault = none →
      a.interp ∈ interps → Remap (remapIn o a d p wm) a.perBand o.blank (.error e) → Moment (remapIn o a d p wm) a.perBand o.blank left →
      Process o a m fs fault (fs.put path (some { created o d p with im := left })) (.error e)
  | done {d : DemOut K} {p : Profile} {wm : Bool} {path : String} {im : OrthoIm K} : prepare o a m = .ok (d, p, wm) →
      openCheck fs "w" "wb" a.overwrite a.file = .ok path → fault = none → a.interp ∈ interps →
      Remap (remapIn o a d p wm) a.perBand o.blank (.ok im) →
      Process o a m fs fault (fs.put path (some { created o d p with im := im, ovw := overviewsOf a d })) (.ok ())

/-! ## Specification -/

/-- The output argument names the file at `path`. -/
def Names (t : Target) (path : String) : Prop := t = .path path ∨ ∃ mode, t = .ofile path mode

/-- Block shapes that GDAL gives a dataset with the profile: its size is that of the profile, and blocks are not empty. -/
structure InfoOk (o : Obj K Src) : Prop where
  height : ∀ p n, Dict.get? p "height" = some (.nat n) → (o.info p).height = n
  width : ∀ p n, Dict.get? p "width" = some (.nat n) → (o.info p).width = n
  block : ∀ p, 0 < (resolveBlock (o.info p) none).1 ∧ 0 < (resolveBlock (o.info p) none).2

/-- The choices that `process` makes from its arguments: resolution `res`, data type `dtype` and nodata value `nd`. -/
structure Choice (o : Obj K Src) (a : Args K) (res : K × K) (dtype : String) (nd : Pix K) : Prop where
  resolution : a.resolution = some res ∨ (a.resolution = none ∧ res = (o.gsd, o.gsd))
  type : (a.dtype = some dtype ∧ dtype ≠ "") ∨ ((a.dtype = none ∨ a.dtype = some "") ∧ dtype = o.srcDtype)
  nodata : (dtype ∈ ["uint8", "uint16"] ∧ nd = some 0) ∨ (dtype = "int16" ∧ nd = some (-32768)) ∨
    (dtype ∈ ["float32", "float64"] ∧ nd = none)

/-- The DEM functions of `o` for a DEM interpolation and resolution. -/
def Obj.call (o : Obj K Src) (demInterp : String) (res : K × K) : Call K :=
  ⟨res, o.orthoSize, o.reproject demInterp res, o.poly demInterp, o.fillPoly⟩

/-- The sample of source band `b` where the camera sees the point (`x`, `y`, `z`), if it does: float32 pixel coordinates, with -1 for NaN. -/
def Obj.seen (o : Obj K Src) (interp dtype : String) (b : ℕ) (x y : K) (z : Pix K) : Option (Pix K) :=
  let ji := (o.cam interp).w2p (some x) (some y) z
  (o.cam interp).samp (o.read dtype interp b) ((o.cam interp).f32 (ji.1.getD (-1))) ((o.cam interp).f32 (ji.2.getD (-1)))

/-- The camera sees no point without an elevation. -/
def Obj.NanUnseen (o : Obj K Src) : Prop := ∀ interp dtype b x y, o.seen interp dtype b x y none = none

/-- Pixel (`i`, `j`) of the DEM `d` is in the footprint of the camera, and has an elevation. -/
def Obj.InView (o : Obj K Src) (a : Args K) (res : K × K) (d : DemOut K) (i j : ℕ) : Prop := Kept (maskArgs (o.call a.demInterp res) d) i j

open Classical in
/-- The value of band `b` for pixel (`i`, `j`) of the DEM: the source where the camera sees the centre of the pixel at its elevation, nodata when it
does not see it, the pixel is outside the camera's footprint, or it has no elevation. -/
noncomputable def Obj.ground (o : Obj K Src) (a : Args K) (res : K × K) (dtype : String) (nd : Pix K) (d : DemOut K) (b i j : ℕ) : Pix K :=
  if o.InView a res d i j then
    (o.seen a.interp dtype b (d.t.apply ((j : K) + 1 / 2) ((i : K) + 1 / 2)).1 (d.t.apply ((j : K) + 1 / 2) ((i : K) + 1 / 2)).2 (d.arr i j)).getD nd
  else nd

/-- `f` is an ortho image of `h` by `w` pixels that covers the camera's footprint on the DEM `d` and no more: its pixel (0, 0) is pixel (`r0`, `c0`) of `d`. -/
structure Covers (o : Obj K Src) (a : Args K) (res : K × K) (d : DemOut K) (f : OrthoFile K) (h w r0 c0 : ℕ) : Prop where
  inside : r0 + h ≤ d.h ∧ c0 + w ≤ d.w
  place : ∀ u v : K, f.transform.apply u v = d.t.apply (u + c0) (v + r0)
  all : ∀ i < d.h, ∀ j < d.w, o.InView a res d i j → r0 ≤ i ∧ i < r0 + h ∧ c0 ≤ j ∧ j < c0 + w
  tight : (∃ j < d.w, o.InView a res d r0 j) ∧ (∃ j < d.w, o.InView a res d (r0 + h - 1) j) ∧
    (∃ i < d.h, o.InView a res d i c0) ∧ ∃ i < d.h, o.InView a res d i (c0 + w - 1)

/-- Creation options that leave size, type and driver alone. -/
def OptsOk (opts : Dict String PVal) : Prop :=
  Dict.Ok opts ∧ ∀ k ∈ ["driver", "dtype", "width", "height", "count"], Dict.get? opts k = none

/-- The profile has the size, data type and driver given. -/
structure ProfileOk (p : Profile) (driver dtype : String) (count h w : ℕ) : Prop where
  driver : Dict.get? p "driver" = some (.str driver)
  dtype : Dict.get? p "dtype" = some (.str dtype)
  count : Dict.get? p "count" = some (.nat count)
  height : Dict.get? p "height" = some (.nat h)
  width : Dict.get? p "width" = some (.nat w)

/-- A profile can be made: a known driver and data type, and JPEG only with 8 or 16 bit unsigned types, unless creation options are given. -/
structure ProfileArgsOk (driver : String) (compress : Option String) (opts : Dict String PVal) (dtype : String) : Prop where
  driver : driver ∈ ["gtiff", "cog"]
  type : dtype ∈ ["uint8", "uint16", "int16", "float32", "float64"]
  compress : opts ≠ [] ∨ compress = none ∨ compress ∈ [some "deflate", some "lzw"] ∨
    (compress = some "jpeg" ∧ dtype ∈ ["uint8", "uint16"])

/-- What `process` needs before it opens the output: a source image, a DEM interpolation type, a resolution within the DEM bounds,
an elevation in the footprint of the camera, and arguments that a profile can be made of. -/
structure Ready (o : Obj K Src) (a : Args K) (m : Mem K) (res : K × K) (dtype : String) : Prop where
  source : o.srcErr = none
  demInterp : a.demInterp ∈ ["nearest", "average", "bilinear", "cubic", "lanczos"]
  bounds : (o.crsEqual = true ∧ res.1 = |o.dem.t.a| ∧ res.2 = |o.dem.t.e|) ∨ (res.1 ≤ o.orthoSize.1 ∧ res.2 ≤ o.orthoSize.2)
  view : ∀ d, DemAt o.dem o.crsEqual (o.call a.demInterp res) m d → ∃ i < d.h, ∃ j < d.w, o.InView a res d i j
  profile : ProfileArgsOk a.driver a.compress a.opts dtype

/-- The output can be opened: nothing is there, or it may be overwritten. -/
def CanOpen {F : Type} (file : Target) (overwrite : Bool) (fs : FS F) (path : String) : Prop :=
  (file = .path path ∨ file = .ofile path "wb") ∧ (overwrite = true ∨ fs path = none)

/-! ## Theorems -/

theorem prepare_ok {o : Obj K Src} {a : Args K} {m : Mem K} {d : DemOut K} {p : Profile} {wm : Bool} (h : prepare o a m = .ok (d, p, wm)) :
    o.srcErr = none ∧ a.demInterp ∈ interps ∧ (processDem o.dem o.crsEqual (demCall o a) m).1 = .ok d ∧
      createProfile a.driver o.count d.h d.w (dtypeOf o a) a.compress a.writeMask a.opts = .ok (p, wm) := by
  unfold prepare at h
  cases hs : o.srcErr with
  | some e => simp [hs] at h
  | none =>
    simp only [hs] at h
    split_ifs at h with hi
    cases hd : (processDem o.dem o.crsEqual (demCall o a) m).1 with
    | error e => simp [hd] at h
    | ok d' =>
      simp only [hd] at h
      cases hp : createProfile a.driver o.count d'.h d'.w (dtypeOf o a) a.compress a.writeMask a.opts with
      | error e => simp [hp] at h
      | ok q =>
        obtain ⟨p', wm'⟩ := q
        simp only [hp, Except.ok.injEq, Prod.mk.injEq] at h
        obtain ⟨rfl, rfl, rfl⟩ := h
        exact ⟨rfl, hi, rfl, hp⟩

theorem choice {o : Obj K Src} {a : Args K} {d : DemOut K} {p : Profile} {wm : Bool}
    (h : createProfile a.driver o.count d.h d.w (dtypeOf o a) a.compress a.writeMask a.opts = .ok (p, wm)) :
    Choice o a (resolutionOf o a) (dtypeOf o a) (nodataFor o a) := by
  refine ⟨?_, ?_, ?_⟩
  · unfold resolutionOf
    cases a.resolution with
    | none => exact Or.inr ⟨rfl, rfl⟩
    | some r => exact Or.inl rfl
  · unfold dtypeOf
    cases hd : a.dtype with
    | none => exact Or.inr ⟨Or.inl rfl, rfl⟩
    | some s =>
      by_cases h0 : s = ""
      · subst h0
        exact Or.inr ⟨Or.inr rfl, by simp⟩
      · simp only [if_neg h0]
        exact Or.inl ⟨trivial, h0⟩
  · unfold nodataFor
    unfold createProfile at h
    cases hdt : Dt.parse (dtypeOf o a) with
    | error e => simp [hdt] at h
    | ok dt =>
      have hn : dtypeOf o a = dt.name := by
        unfold Dt.parse at hdt
        split_ifs at hdt <;> cases hdt <;> assumption
      rw [hn]
      cases dt <;> simp [nodataOf, Dt.name]

theorem profile_ok {driver dtype : String} {count height width : ℕ} {compress : Option String} {mask : Option Bool} {opts : Dict String PVal}
    {p : Profile} {wm : Bool} (ho : OptsOk opts) (h : createProfile driver count height width dtype compress mask opts = .ok (p, wm)) :
    ProfileOk p driver dtype count height width := by
  by_cases hne : opts = []
  · rw [hne] at h
    obtain ⟨h1, h2, h3, h4, h5⟩ := C12_size h
    exact ⟨h5, h4, h1, h2, h3⟩
  · unfold createProfile at h
    cases hdt : Dt.parse dtype with
    | error e => simp [hdt] at h
    | ok dt =>
      cases hdrv : Driver.parse driver with
      | error e => simp [hdt, hdrv] at h
      | ok drv =>
        have hl : ¬ opts.length = 0 := by rwa [List.length_eq_zero_iff]
        simp only [hdt, hdrv, if_neg hl, Except.ok.injEq, Prod.mk.injEq] at h
        obtain ⟨rfl, -⟩ := h
        have hn : dtype = dt.name := by
          unfold Dt.parse at hdt
          split_ifs at hdt <;> cases hdt <;> assumption
        have hv : driver = drv.value := by
          unfold Driver.parse at hdrv
          split_ifs at hdrv <;> cases hdrv <;> assumption
        have key : ∀ k ∈ ["driver", "dtype", "width", "height", "count"], ∀ v,
            Dict.get? (Dict.set (Dict.update (initProfile drv count height width dt) opts) "nodata" v) k =
              Dict.get? (initProfile drv count height width dt) k := by
          intro k hk v
          rw [Dict.get?_set, if_neg, Dict.get?_update]
          · rw [ho.2 k hk]; rfl
          all_goals first | exact ho.1 | (revert k; decide)
        exact ⟨by rw [key _ (by decide), hv]; rfl, by rw [key _ (by decide), hn]; rfl, by rw [key _ (by decide)]; rfl,
          by rw [key _ (by decide)]; rfl, by rw [key _ (by decide)]; rfl⟩

theorem openCheck_names {F : Type} {fs : FS F} {ow : Bool} {t : Target} {path p : String} (hn : Names t path)
    (h : openCheck fs "w" "wb" ow t = .ok p) : p = path := by
  rcases hn with rfl | ⟨mode, rfl⟩
  · simp only [openCheck] at h
    split_ifs at h
    exact (Except.ok.inj h).symm
  · simp only [openCheck] at h
    split_ifs at h
    exact (Except.ok.inj h).symm

/-- What is known of an ortho image that `process` made, apart from its pixels. -/
theorem process_ok {o : Obj K Src} {a : Args K} {m : Mem K} {fs fs' : FS (OrthoFile K)} {fault : Option (Fault (OrthoFile K))}
    (hi : InfoOk o) (ho : OptsOk a.opts) {path : String} (hn : Names a.file path) (h : Process o a m fs fault fs' (.ok ())) :
    ∃ res dtype nd f d h w r0 c0 e p wm, fs' = fs.put path (some f) ∧ Choice o a res dtype nd ∧
      DemAt o.dem o.crsEqual (o.call a.demInterp res) m d ∧ Covers o a res d f h w r0 c0 ∧
      ProfileOk f.profile a.driver dtype o.count h w ∧ f.crs = o.crs ∧ f.colors = o.colors ∧
      f.ovw = (if a.buildOvw = true then overviewLevels h w 8 256 else []) ∧
      (∀ i j, i < h → j < w → (e.arr i j = none ↔ ¬ o.InView a res d (r0 + i) (c0 + j)) ∧
        (o.InView a res d (r0 + i) (c0 + j) → e.arr i j = d.arr (r0 + i) (c0 + j))) ∧
      e.h = h ∧ e.w = w ∧ e.t = f.transform ∧
      (o.info p).height = h ∧ (o.info p).width = w ∧ nd = nodataFor o a ∧ dtype = dtypeOf o a ∧ f.profile = p ∧
      createProfile a.driver o.count h w dtype a.compress a.writeMask a.opts = .ok (p, wm) ∧
      Remap (remapIn o a e p wm) a.perBand o.blank (.ok f.im) := by
  classical
  cases h with
  | @done e p wm path' im hp hc hf hin hr =>
    obtain rfl := openCheck_names hn hc
    obtain ⟨-, -, h3, h4⟩ := prepare_ok hp
    obtain ⟨d, r0, c0, hd, b1, b2, b3, b4, b5, b6⟩ := C64_dem _ _ _ _ _ h3
    have hpo := profile_ok ho h4
    refine ⟨resolutionOf o a, dtypeOf o a, nodataFor o a, { created o e p with im := im, ovw := overviewsOf a e }, d, e.h, e.w, r0, c0, e, p, wm,
      rfl, choice h4, hd, ⟨⟨b1, b2⟩, b4, b5, b6⟩, hpo, rfl, rfl, rfl, ?_, rfl, rfl, rfl, hi.height _ _ hpo.height, hi.width _ _ hpo.width,
      rfl, rfl, rfl, h4, hr⟩
    intro i j hi hj
    have := b3 i hi j hj
    constructor
    · rw [this]
      by_cases hk : Kept (maskArgs (demCall o a) d) (r0 + i) (c0 + j)
      · rw [if_pos hk]
        exact ⟨fun h0 => absurd h0 hk.2, fun h0 => absurd hk h0⟩
      · rw [if_neg hk]
        exact ⟨fun _ => hk, fun _ => rfl⟩
    · intro hk
      rw [this]
      exact if_pos hk

theorem orthoValue_ground {o : Obj K Src} {a : Args K} {p : Profile} {wm : Bool} {res : K × K} {d e : DemOut K} {f : OrthoFile K}
    {h w r0 c0 : ℕ} (hnan : o.NanUnseen) (hc : Covers o a res d f h w r0 c0) (ht : e.t = f.transform)
    (he : ∀ i j, i < h → j < w → (e.arr i j = none ↔ ¬ o.InView a res d (r0 + i) (c0 + j)) ∧
      (o.InView a res d (r0 + i) (c0 + j) → e.arr i j = d.arr (r0 + i) (c0 + j))) (b r c : ℕ) (hr : r < h) (hcw : c < w) :
    orthoValue (remapIn o a e p wm) b r c = o.ground a res (dtypeOf o a) (nodataFor o a) d b (r0 + r) (c0 + c) := by
  classical
  have hxy : pixelCentre e.t r c = d.t.apply (((c0 + c : ℕ) : K) + 1 / 2) (((r0 + r : ℕ) : K) + 1 / 2) := by
    unfold pixelCentre
    rw [ht, hc.place]
    congr 1 <;> push_cast <;> ring
  have hv : orthoValue (remapIn o a e p wm) b r c =
      (o.seen a.interp (dtypeOf o a) b (pixelCentre e.t r c).1 (pixelCentre e.t r c).2 (e.arr r c)).getD (nodataFor o a) := by
    unfold orthoValue Obj.seen
    simp only [remapIn]
    cases (o.cam a.interp).samp _ _ _ <;> rfl
  rw [hv]
  unfold Obj.ground
  by_cases hk : o.InView a res d (r0 + r) (c0 + c)
  · rw [if_pos hk, (he r c hr hcw).2 hk, hxy]
  · rw [if_neg hk, (he r c hr hcw).1.2 hk, hnan]
    rfl

/-- C82: an ortho image that `process` completes is at its path, in the CRS of the camera, with the bands, data type, driver, colours and overviews
asked for; it covers the camera's footprint on the DEM at the ortho resolution and no more; and, for cameras that do not dilate, each pixel of
each band is the source where the camera sees the centre of the pixel at its elevation, and nodata where it does not.  No other file
is changed. -/
theorem C82_pixels (o : Obj K Src) (a : Args K) (m : Mem K) (fs fs' : FS (OrthoFile K)) (fault : Option (Fault (OrthoFile K)))
    (hi : InfoOk o) (hnan : o.NanUnseen) (ho : OptsOk a.opts) (path : String) (hn : Names a.file path)
    (hmode : o.frame = false ∨ o.distort = true ∨ o.pinhole = true ∨ a.interp = "nearest")
    (h : Process o a m fs fault fs' (.ok ())) :
    ∃ res dtype nd f d h w r0 c0, fs' = fs.put path (some f) ∧ Choice o a res dtype nd ∧
      DemAt o.dem o.crsEqual (o.call a.demInterp res) m d ∧ Covers o a res d f h w r0 c0 ∧
      ProfileOk f.profile a.driver dtype o.count h w ∧ f.crs = o.crs ∧ f.colors = o.colors ∧
      f.ovw = (if a.buildOvw = true then overviewLevels h w 8 256 else []) ∧
      ∀ b r c, 1 ≤ b → b ≤ o.count → r < h → c < w →
        f.im.data b r c = o.ground a res dtype nd d b (r0 + r) (c0 + c) := by
  obtain ⟨res, dtype, nd, f, d, h, w, r0, c0, e, p, wm, h1, h2, h3, h4, h5, h6, h7, h8, h9, h10, h11, h12, h13, h14, rfl, rfl, h15, h16, hr⟩ :=
    process_ok hi ho hn h
  refine ⟨res, _, _, f, d, h, w, r0, c0, h1, h2, h3, h4, h5, h6, h7, h8, ?_⟩
  intro b r c hb1 hb2 hrr hcc
  have hm : (remapIn o a e p wm).mode.dilates (remapIn o a e p wm).nodata = false := by
    simp only [remapIn, RemapMode.dilates]
    rcases hmode with hm | hm | hm | hm <;> simp [hm]
  rw [C02_ortho_pixels _ _ _ _ hm hr b r c hb1 hb2 (by show r < (o.info p).height; omega) (by show c < (o.info p).width; omega)]
  exact orthoValue_ground hnan h4 h12 h9 b r c hrr hcc

theorem computeTile_dilated {p : RemapIn K Src} {w₀ w : Win} {ix : List ℕ} {t : Tile K} (h : computeTile p w₀ ix w = .ok t) {k b : ℕ}
    (hb : ix[k]? = some b) (r c : ℕ) (hr : r < w.height) (hc : c < w.width) :
    (t.val k r c = orthoValue p b (w.rowOff + r) (w.colOff + c) ∨ t.val k r c = p.nodata) ∧
    ((∀ r' c', r' < w.height → c' < w.width → InKernel p.kernel.1 p.kernel.2 r c r' c' →
      orthoValue p b (w.rowOff + r') (w.colOff + c') ≠ p.nodata) → t.val k r c = orthoValue p b (w.rowOff + r) (w.colOff + c)) := by
  cases hd : p.mode.dilates p.nodata with
  | false =>
    have := computeTile_val hd h k r c b hb
    exact ⟨Or.inl this, fun _ => this⟩
  | true =>
    set q : RemapIn K Src := { p with mode := ⟨false, false, false, false⟩ } with hq
    have hqd : q.mode.dilates q.nodata = false := rfl
    cases h0 : computeTile q w₀ ix w with
    | error e =>
      unfold computeTile at h h0
      simp only [remap, hq] at h h0
      split at h
      · cases h
      · rename_i heq
        rw [heq] at h0
        simp [RemapMode.dilates] at h0
    | ok t0 =>
      have hv := computeTile_val hqd h0
      have hm := computeTile_mask hqd h0
      have hsz : t0.h ≤ w.height ∧ t0.w ≤ w.width ∧
          t.val k r c = if dilate t0.h t0.w p.kernel.1 p.kernel.2 t0.mask r c = true then p.nodata else t0.val k r c := by
        unfold computeTile at h h0
        simp only [remap, hq] at h h0
        split at h
        · cases h
        · rename_i t1 heq
          rw [heq] at h0
          simp only [RemapMode.dilates, Bool.false_and, Bool.false_eq_true, if_false, Except.ok.injEq] at h0
          subst h0
          rw [if_pos hd] at h
          cases h
          unfold cameraRemap at heq
          split_ifs at heq
          cases heq
          refine ⟨?_, ?_, rfl⟩ <;> simp only [tileGrids, Grid.slice, initGrids] <;> omega
      rw [hsz.2.2]
      have e0 := hv k r c b hb
      rw [show orthoValue q b (w.rowOff + r) (w.colOff + c) = orthoValue p b (w.rowOff + r) (w.colOff + c) from rfl] at e0
      constructor
      · split
        · exact Or.inr rfl
        · exact Or.inl e0
      · intro hall
        rw [if_neg]
        · exact e0
        · rw [dilate_iff]
          rintro ⟨r', c', hr', hc', hk, hm'⟩
          exact hall r' c' (by omega) (by omega) hk ((hm r' c').1 hm' b (List.mem_of_getElem? hb))

/-- C82: the value of a pixel of a dilating camera is what `C82_pixels` says or nodata, and is what it says if that is not nodata at any pixel of the
ortho under the kernel, which has at least 3 by 3 pixels and at least five source pixels in each direction. -/
theorem C82_dilated (o : Obj K Src) (a : Args K) (m : Mem K) (fs fs' : FS (OrthoFile K)) (fault : Option (Fault (OrthoFile K)))
    (hi : InfoOk o) (hnan : o.NanUnseen) (ho : OptsOk a.opts) (path : String) (hn : Names a.file path)
    (h : Process o a m fs fault fs' (.ok ())) :
    ∃ (res : K × K) (dtype : String) (nd : Pix K) (f : OrthoFile K) (d : DemOut K) (h w r0 c0 kw kh : ℕ), fs' = fs.put path (some f) ∧ Choice o a res dtype nd ∧
      DemAt o.dem o.crsEqual (o.call a.demInterp res) m d ∧ Covers o a res d f h w r0 c0 ∧
      (3 ≤ kw ∧ 3 ≤ kh ∧ 5 * o.gsd / |f.transform.a| ≤ (kw : K) ∧ 5 * o.gsd / |f.transform.e| ≤ (kh : K)) ∧
      ∀ b r c, 1 ≤ b → b ≤ o.count → r < h → c < w →
        (f.im.data b r c = o.ground a res dtype nd d b (r0 + r) (c0 + c) ∨ f.im.data b r c = nd) ∧
        ((∀ r' c', r' < h → c' < w → InKernel kw kh r c r' c' → o.ground a res dtype nd d b (r0 + r') (c0 + c') ≠ nd) →
          f.im.data b r c = o.ground a res dtype nd d b (r0 + r) (c0 + c)) := by
  obtain ⟨res, dtype, nd, f, d, h, w, r0, c0, e, p, wm, h1, h2, h3, h4, h5, h6, h7, h8, h9, h10, h11, h12, h13, h14, rfl, rfl, h15, h16, hr⟩ :=
    process_ok hi ho hn h
  have hk3 : 3 ≤ (kernelSize o.gsd e.t).1 ∧ 3 ≤ (kernelSize o.gsd e.t).2 := by
    unfold kernelSize
    constructor <;> omega
  have hk5 : ∀ x : K, x ≤ (((max ⌈x⌉ 3).toNat : ℕ) : K) := by
    intro x
    have h0 : (0 : ℤ) ≤ max ⌈x⌉ 3 := le_trans (by norm_num) (le_max_right _ _)
    have h1 : (((max ⌈x⌉ 3).toNat : ℕ) : K) = ((max ⌈x⌉ 3 : ℤ) : K) := by
      rw [← Int.cast_natCast, Int.toNat_of_nonneg h0]
    rw [h1]
    exact le_trans (Int.le_ceil x) (Int.cast_le.2 (le_max_left _ _))
  refine ⟨res, _, _, f, d, h, w, r0, c0, (kernelSize o.gsd e.t).1, (kernelSize o.gsd e.t).2, h1, h2, h3, h4,
    ⟨hk3.1, hk3.2, by rw [← h12]; exact hk5 _, by rw [← h12]; exact hk5 _⟩, ?_⟩
  intro b r c hb1 hb2 hrr hcc
  obtain ⟨w₀, ws, hws, hall⟩ := C02_tile_values _ _ _ _ hr
  have htl := C01_tiles_partition _ _ _ hws
  obtain ⟨i, win, hwi, hhas⟩ := tiling_exists htl (show r < (o.info p).height by omega) (show c < (o.info p).width by omega)
  obtain ⟨t, ht, hv⟩ := hall b hb1 hb2 win (List.mem_of_getElem? hwi)
  have hH : (remapIn o a e p wm).out.height = h := h13
  have hW : (remapIn o a e p wm).out.width = w := h14
  have hix : (if a.perBand = true then [b] else List.range' 1 o.count)[if a.perBand = true then 0 else b - 1]? = some b := by
    split
    · rfl
    · rw [List.getElem?_range' (by omega)]
      congr 1
      omega
  have hin := htl.inside win (List.mem_of_getElem? hwi)
  have hhas' := hhas
  unfold Win.Has at hhas'
  have key := computeTile_dilated ht hix (r - win.rowOff) (c - win.colOff) (by omega) (by omega)
  have e1 : win.rowOff + (r - win.rowOff) = r := by omega
  have e2 : win.colOff + (c - win.colOff) = c := by omega
  rw [hv r c hhas]
  rw [e1, e2, orthoValue_ground hnan h4 h12 h9 b r c hrr hcc] at key
  refine ⟨key.1, fun hall => key.2 fun r' c' hr' hc' hk => ?_⟩
  rw [orthoValue_ground hnan h4 h12 h9 b _ _ (by omega) (by omega)]
  refine hall _ _ (by omega) (by omega) ?_
  simp only [remapIn] at hk
  unfold InKernel at hk ⊢
  omega

/-- C82: the pixels of the ortho have the ortho resolution, if that is positive and those of a reprojected DEM have. -/
theorem C82_resolution (o : Obj K Src) (a : Args K) (m : Mem K) (fs fs' : FS (OrthoFile K)) (fault : Option (Fault (OrthoFile K)))
    (hi : InfoOk o) (ho : OptsOk a.opts) (path : String) (hn : Names a.file path)
    (hrep : ∀ i res d, 0 < res.1 → 0 < res.2 → |(o.reproject i res d).t.a| = res.1 ∧ |(o.reproject i res d).t.e| = res.2)
    (h : Process o a m fs fault fs' (.ok ())) :
    ∃ f res, fs' = fs.put path (some f) ∧ (a.resolution = some res ∨ (a.resolution = none ∧ res = (o.gsd, o.gsd))) ∧
      (0 < res.1 → 0 < res.2 → |f.transform.a| = res.1 ∧ |f.transform.e| = res.2) := by
  obtain ⟨res, dtype, nd, f, d, h, w, r0, c0, e, p, wm, h1, h2, h3, h4, -⟩ := process_ok hi ho hn h
  have ha : f.transform.a = d.t.a ∧ f.transform.e = d.t.e := by
    have p0 := h4.place 0 0
    have p1 := h4.place 1 0
    have p2 := h4.place 0 1
    simp only [Affine.apply, Prod.mk.injEq] at p0 p1 p2
    exact ⟨by linear_combination p1.1 - p0.1, by linear_combination p2.2 - p0.2⟩
  refine ⟨f, res, h1, h2.resolution, fun p1 p2 => ?_⟩
  rw [ha.1, ha.2]
  rcases h3 with ⟨-, h5, h6, rfl⟩ | ⟨-, rfl⟩
  · exact ⟨h5.symm, h6.symm⟩
  · exact hrep _ _ _ p1 p2

theorem createProfile_writeMask {driver dtype : String} {count h w : ℕ} {compress : Option String} {opts : Dict String PVal} {b : Bool} {p : Profile}
    {wm : Bool} (hp : createProfile driver count h w dtype compress (some b) opts = .ok (p, wm)) : wm = b := by
  unfold createProfile at hp
  cases hdt : Dt.parse dtype with
  | error e => simp [hdt] at hp
  | ok dt =>
    cases hdrv : Driver.parse driver with
    | error e => simp [hdt, hdrv] at hp
    | ok drv =>
      simp only [hdt, hdrv] at hp
      split_ifs at hp with hl
      · cases hc : resolveCompress dt compress (initProfile drv count h w dt) with
        | error e => simp [hc] at hp
        | ok q =>
          simp only [hc, Except.ok.injEq, Prod.mk.injEq] at hp
          exact hp.2.symm
      all_goals
        simp only [Except.ok.injEq, Prod.mk.injEq] at hp
        exact hp.2.symm

/-- C82: with `write_mask`, for cameras that do not dilate, the mask is valid where a band is not nodata, or with `per_band`, where the first band
is not. -/
theorem C82_mask (o : Obj K Src) (a : Args K) (m : Mem K) (fs fs' : FS (OrthoFile K)) (fault : Option (Fault (OrthoFile K)))
    (hi : InfoOk o) (hnan : o.NanUnseen) (ho : OptsOk a.opts) (path : String) (hn : Names a.file path)
    (hmode : o.frame = false ∨ o.distort = true ∨ o.pinhole = true ∨ a.interp = "nearest") (hc : 1 ≤ o.count)
    (hwm : a.writeMask = some true) (h : Process o a m fs fault fs' (.ok ())) :
    ∃ res dtype nd f d h w r0 c0, fs' = fs.put path (some f) ∧ Choice o a res dtype nd ∧
      DemAt o.dem o.crsEqual (o.call a.demInterp res) m d ∧ Covers o a res d f h w r0 c0 ∧
      ∀ r c, r < h → c < w → (f.im.valid r c = true ↔ if a.perBand = true then o.ground a res dtype nd d 1 (r0 + r) (c0 + c) ≠ nd
        else ∃ b, 1 ≤ b ∧ b ≤ o.count ∧ o.ground a res dtype nd d b (r0 + r) (c0 + c) ≠ nd) := by
  obtain ⟨res, dtype, nd, f, d, h, w, r0, c0, e, p, wm, h1, h2, h3, h4, h5, h6, h7, h8, h9, h10, h11, h12, h13, h14, rfl, rfl, h15, h16, hr⟩ :=
    process_ok hi ho hn h
  refine ⟨res, _, _, f, d, h, w, r0, c0, h1, h2, h3, h4, ?_⟩
  intro r c hrr hcc
  have hm : (remapIn o a e p wm).mode.dilates (remapIn o a e p wm).nodata = false := by
    simp only [remapIn, RemapMode.dilates]
    rcases hmode with hm | hm | hm | hm <;> simp [hm]
  have hw : wm = true := by
    rw [hwm] at h16
    exact createProfile_writeMask h16
  have hg := fun b => orthoValue_ground (p := p) (wm := wm) hnan h4 h12 h9 b r c hrr hcc
  cases hp : a.perBand with
  | true =>
    rw [hp] at hr
    rw [C04_per_band_mask _ _ _ hm hw hc hr r c (by show r < (o.info p).height; omega) (by show c < (o.info p).width; omega), hg]
    exact Iff.rfl
  | false =>
    rw [hp] at hr
    rw [C04_all_bands_mask _ _ _ hm hw hr r c (by show r < (o.info p).height; omega) (by show c < (o.info p).width; omega)]
    unfold orthoValid
    simp only [hg]
    exact Iff.rfl

theorem createProfile_ok {driver dtype : String} {compress : Option String} {opts : Dict String PVal} (h : ProfileArgsOk driver compress opts dtype)
    (mask : Option Bool) (count height width : ℕ) :
    ∃ p wm, createProfile driver count height width dtype compress mask opts = .ok (p, wm) := by
  obtain ⟨drv, hdrv⟩ : ∃ drv, Driver.parse driver = .ok drv := by
    have := h.driver
    simp only [List.mem_cons, List.not_mem_nil, or_false] at this
    rcases this with e | e <;> rw [e] <;> exact ⟨_, rfl⟩
  obtain ⟨dt, hdt, hn⟩ : ∃ dt, Dt.parse dtype = .ok dt ∧ dtype = dt.name := by
    have := h.type
    simp only [List.mem_cons, List.not_mem_nil, or_false] at this
    rcases this with e | e | e | e | e <;> subst e <;> exact ⟨_, rfl, rfl⟩
  unfold createProfile
  simp only [hdrv, hdt]
  split_ifs with hl
  · have h0 : opts = [] := List.length_eq_zero_iff.1 hl
    obtain ⟨q, hq⟩ : ∃ q, resolveCompress dt compress (initProfile drv count height width dt) = .ok q := by
      rcases h.compress with e | e | e | ⟨e, e'⟩
      · exact absurd h0 e
      · rw [e]; exact ⟨_, rfl⟩
      · simp only [List.mem_cons, List.not_mem_nil, or_false] at e
        rcases e with e | e <;> rw [e] <;> exact ⟨_, rfl⟩
      · rw [e]
        simp only [hn, List.mem_cons, List.not_mem_nil, or_false] at e'
        cases dt <;> first | exact ⟨_, rfl⟩ | (exfalso; revert e'; decide)
    rw [hq]
    exact ⟨_, _, rfl⟩
  all_goals exact ⟨_, _, rfl⟩

theorem resolution_eq {o : Obj K Src} {a : Args K} {res : K × K}
    (hr : a.resolution = some res ∨ (a.resolution = none ∧ res = (o.gsd, o.gsd))) : res = resolutionOf o a := by
  unfold resolutionOf
  rcases hr with e | ⟨e, e'⟩ <;> rw [e] <;> first | rfl | exact e'

theorem prepare_ready {o : Obj K Src} {a : Args K} {m : Mem K} {res : K × K} {dtype : String}
    (hr : a.resolution = some res ∨ (a.resolution = none ∧ res = (o.gsd, o.gsd)))
    (hd : (a.dtype = some dtype ∧ dtype ≠ "") ∨ ((a.dtype = none ∨ a.dtype = some "") ∧ dtype = o.srcDtype))
    (h : Ready o a m res dtype) : ∃ d p wm, prepare o a m = .ok (d, p, wm) := by
  obtain rfl := resolution_eq hr
  obtain rfl : dtype = dtypeOf o a := by
    unfold dtypeOf
    rcases hd with ⟨e, e'⟩ | ⟨e | e, e'⟩ <;> simp [e, e']
  unfold prepare
  rw [h.source]
  simp only
  rw [if_neg (show ¬ a.demInterp ∉ interps from not_not.2 h.demInterp)]
  have hc := C64_refuses o.dem o.crsEqual (demCall o a) m
  rcases hc.1 with he | ⟨d, hd⟩
  · exfalso
    rcases hc.2.1 he with ⟨h1, h2⟩ | ⟨d, h1, h2⟩
    · rcases h.bounds with h3 | h3
      · exact h1 h3
      · rcases h2 with h2 | h2
        · exact absurd h3.1 (not_le.2 h2)
        · exact absurd h3.2 (not_le.2 h2)
    · obtain ⟨i, hi, j, hj, hv⟩ := h.view d h1
      exact h2 i hi j hj hv
  · rw [hd]
    obtain ⟨p, wm, hp⟩ := createProfile_ok h.profile a.writeMask o.count d.h d.w
    simp only [hp]
    exact ⟨_, _, _, rfl⟩

theorem openCheck_canOpen {F : Type} {file : Target} {overwrite : Bool} {fs : FS F} {path : String} (h : CanOpen file overwrite fs path) :
    openCheck fs "w" "wb" overwrite file = .ok path := by
  obtain ⟨h1, h2⟩ := h
  have h3 : ¬ ((!overwrite && (fs path).isSome) = true) := by
    rcases h2 with h2 | h2 <;> simp [h2]
  rcases h1 with h1 | h1 <;> rw [h1] <;> simp only [openCheck]
  · rw [if_neg h3]
  · rw [if_neg (by decide), if_neg h3]

/-- C82: when `process` has what it needs, the output can be opened, and the source image and the blocks of the output are within OpenCV's limit, it
completes, and no interleaving of its threads makes it fail. -/
theorem C82_completes (o : Obj K Src) (a : Args K) (m : Mem K) (fs : FS (OrthoFile K)) (hi : InfoOk o) (ho : OptsOk a.opts) (path : String)
    (res : K × K) (dtype : String) (hr : a.resolution = some res ∨ (a.resolution = none ∧ res = (o.gsd, o.gsd)))
    (hd : (a.dtype = some dtype ∧ dtype ≠ "") ∨ ((a.dtype = none ∨ a.dtype = some "") ∧ dtype = o.srcDtype))
    (h : Ready o a m res dtype) (hopen : CanOpen a.file a.overwrite fs path) (hin : a.interp ∈ ["nearest", "average", "bilinear", "cubic", "lanczos"])
    (hsrc : o.srcH < 32767 ∧ o.srcW < 32767) (hcv : ∀ p, SmallTiles (o.info p)) :
    (∃ fs', Process o a m fs none fs' (.ok ())) ∧ ∀ fs' r, Process o a m fs none fs' r → r = .ok () := by
  obtain ⟨d, p, wm, hp⟩ := prepare_ready hr hd h
  obtain rfl := resolution_eq hr
  have hc := openCheck_canOpen hopen
  obtain ⟨-, -, h3, h4⟩ := prepare_ok hp
  obtain ⟨d', r0, c0, hd', b1, b2, b3, b4, b5, -⟩ := C64_dem _ _ _ _ _ h3
  have hpo := profile_ok ho h4
  have hh := hi.height _ _ hpo.height
  have hw := hi.width _ _ hpo.width
  have hpos : 0 < d.h ∧ 0 < d.w := by
    obtain ⟨i, hi, j, hj, hv⟩ := h.view d' hd'
    have := b5 i hi j hj hv
    omega
  obtain ⟨hex, hno⟩ := C02_completes (remapIn o a d p wm) a.perBand o.blank hsrc (hcv p) ⟨hh.symm, hw.symm⟩ (hi.block p)
    ⟨by show 0 < (o.info p).height; omega, by show 0 < (o.info p).width; omega⟩
  obtain ⟨im, him⟩ := hex
  refine ⟨⟨_, .done hp hc rfl hin him⟩, ?_⟩
  intro fs' r hpr
  cases hpr with
  | before h => rw [hp] at h; cases h
  | refused h h' => rw [hc] at h'; cases h'
  | fault h h' h'' => cases h''
  | interp h h' h'' hni => exact absurd hin hni
  | stopped left h h' h'' h3 hst _ =>
    rw [hp] at h
    cases h
    exact absurd hst (hno _)
  | done => rfl

/-- C82 does not hold for all source images that are accepted: with 32767 rows or columns `process` ends in `RuntimeError`, having replaced or made
the output file. -/
theorem C82_size_fails (o : Obj K Src) (a : Args K) (m : Mem K) (fs : FS (OrthoFile K)) (hi : InfoOk o) (ho : OptsOk a.opts) (path : String)
    (res : K × K) (dtype : String) (hr : a.resolution = some res ∨ (a.resolution = none ∧ res = (o.gsd, o.gsd)))
    (hd : (a.dtype = some dtype ∧ dtype ≠ "") ∨ ((a.dtype = none ∨ a.dtype = some "") ∧ dtype = o.srcDtype))
    (h : Ready o a m res dtype) (hopen : CanOpen a.file a.overwrite fs path) (hin : a.interp ∈ ["nearest", "average", "bilinear", "cubic", "lanczos"])
    (hc : 0 < o.count) (hsrc : o.srcH ≤ 32767 ∧ o.srcW ≤ 32767) (hbig : o.srcH = 32767 ∨ o.srcW = 32767) (fs' : FS (OrthoFile K)) (r : Res Unit)
    (hpr : Process o a m fs none fs' r) : r = .error .runtimeError ∧ ∃ f, fs' path = some f := by
  obtain ⟨d, p, wm, hp⟩ := prepare_ready hr hd h
  obtain rfl := resolution_eq hr
  have hop := openCheck_canOpen hopen
  obtain ⟨-, -, h3, h4⟩ := prepare_ok hp
  obtain ⟨d', r0, c0, hd', b1, b2, b3, b4, b5, -⟩ := C64_dem _ _ _ _ _ h3
  have hpo := profile_ok ho h4
  have hh := hi.height _ _ hpo.height
  have hw := hi.width _ _ hpo.width
  have hpos : 0 < d.h ∧ 0 < d.w := by
    obtain ⟨i, hi, j, hj, hv⟩ := h.view d' hd'
    have := b5 i hi j hj hv
    omega
  have hno := C02_size_fails (remapIn o a d p wm) a.perBand o.blank hc hsrc ⟨hh.symm, hw.symm⟩ (hi.block p)
    ⟨by show 0 < (o.info p).height; omega, by show 0 < (o.info p).width; omega⟩ (hbig.imp_right .inl)
  cases hpr with
  | before h => rw [hp] at h; cases h
  | refused h h' => rw [hop] at h'; cases h'
  | fault h h' h'' => cases h''
  | interp h h' h'' hni => exact absurd hin hni
  | stopped left h h' h'' h3 hst _ =>
    rw [hp] at h
    cases h
    rw [hop] at h'
    cases h'
    refine ⟨?_, by simp [FS.put]⟩
    have := hno _ hst
    cases this
    rfl
  | done h h' h'' h3 hst =>
    rw [hp] at h
    cases h
    exact nomatch hno _ hst

/-- C82: `process` changes no file but the one it writes.  It changes nothing when the source image cannot be opened, the DEM interpolation type is not
known, the ortho resolution is larger than the DEM bounds, the camera sees no elevation, a profile cannot be made, or the output exists and
`overwrite` is not given. -/
theorem C82_files (o : Obj K Src) (a : Args K) (m : Mem K) (fs fs' : FS (OrthoFile K)) (fault : Option (Fault (OrthoFile K))) (path : String)
    (hn : Names a.file path) (r : Res Unit) (h : Process o a m fs fault fs' r) :
    (∀ q ≠ path, fs' q = fs q) ∧
    ((o.srcErr ≠ none ∨ a.demInterp ∉ ["nearest", "average", "bilinear", "cubic", "lanczos"] ∨
      (∃ res, (a.resolution = some res ∨ (a.resolution = none ∧ res = (o.gsd, o.gsd))) ∧
        ((¬ (o.crsEqual = true ∧ res.1 = |o.dem.t.a| ∧ res.2 = |o.dem.t.e|) ∧ (o.orthoSize.1 < res.1 ∨ o.orthoSize.2 < res.2)) ∨
          ∃ d, DemAt o.dem o.crsEqual (o.call a.demInterp res) m d ∧ ∀ i < d.h, ∀ j < d.w, ¬ o.InView a res d i j)) ∨
      a.driver ∉ ["gtiff", "cog"] ∨ (∃ s, a.dtype = some s ∧ s ∉ ["", "uint8", "uint16", "int16", "float32", "float64"]) ∨
      (a.overwrite = false ∧ fs path ≠ none)) → fs' = fs ∧ ∃ e, r = .error e) := by
  constructor
  · intro q hq
    cases h with
    | before => rfl
    | refused => rfl
    | fault _ h => rw [openCheck_names hn h]; exact if_neg hq
    | interp _ h => rw [openCheck_names hn h]; exact if_neg hq
    | stopped _ _ h => rw [openCheck_names hn h]; exact if_neg hq
    | done _ h => rw [openCheck_names hn h]; exact if_neg hq
  · intro hbad
    have key : ∀ x, prepare o a m = .ok x → ∀ p, openCheck fs "w" "wb" a.overwrite a.file = .ok p → False := by
      rintro ⟨d, p, wm⟩ hp q hq
      obtain ⟨h1, h2, h3, h4⟩ := prepare_ok hp
      rcases hbad with hb | hb | ⟨res, hr, hb⟩ | hb | ⟨s, hs, hb⟩ | ⟨ho, hb⟩
      · exact hb h1
      · exact hb h2
      · obtain rfl := resolution_eq hr
        have := (C64_refuses o.dem o.crsEqual (demCall o a) m).2.2 hb
        rw [h3] at this
        cases this
      · refine hb ?_
        unfold createProfile at h4
        cases hdt : Dt.parse (dtypeOf o a) with
        | error e => simp [hdt] at h4
        | ok dt =>
          cases hdrv : Driver.parse a.driver with
          | error e => simp [hdt, hdrv] at h4
          | ok drv =>
            unfold Driver.parse at hdrv
            split_ifs at hdrv with e1 e2 <;> simp [*]
      · have hd : dtypeOf o a = s := by
          unfold dtypeOf
          rw [hs]
          exact if_neg fun e => hb (by simp [e])
        have := (choice h4).nodata
        rw [hd] at this
        refine hb ?_
        rcases this with ⟨h, -⟩ | ⟨h, -⟩ | ⟨h, -⟩ <;> simp only [List.mem_cons, List.not_mem_nil, or_false] at h ⊢ <;> tauto
      · have := openCheck_names hn hq
        subst this
        have hi : (fs q).isSome = true := Option.isSome_iff_ne_none.2 hb
        rcases hn with e | ⟨mode, e⟩ <;> rw [e] at hq <;> simp only [openCheck] at hq <;> split_ifs at hq <;> simp_all
    cases h with
    | before => exact ⟨rfl, _, rfl⟩
    | refused => exact ⟨rfl, _, rfl⟩
    | fault h h' => exact (key _ h _ h').elim
    | interp h h' => exact (key _ h _ h').elim
    | stopped _ h h' => exact (key _ h _ h').elim
    | done h h' => exact (key _ h _ h').elim

/-- C82: an unknown `interp` is a ValueError, but only after the output is made: a file that was there is replaced by an image without data. -/
theorem C82_interp_fails (o : Obj K Src) (a : Args K) (m : Mem K) (fs : FS (OrthoFile K)) (path : String)
    (res : K × K) (dtype : String) (hr : a.resolution = some res ∨ (a.resolution = none ∧ res = (o.gsd, o.gsd)))
    (hd : (a.dtype = some dtype ∧ dtype ≠ "") ∨ ((a.dtype = none ∨ a.dtype = some "") ∧ dtype = o.srcDtype))
    (h : Ready o a m res dtype) (hopen : CanOpen a.file a.overwrite fs path) (hin : a.interp ∉ ["nearest", "average", "bilinear", "cubic", "lanczos"]) :
    (∃ fs', Process o a m fs none fs' (.error .valueError)) ∧
    ∀ fs' r, Process o a m fs none fs' r → r = .error .valueError ∧ ∃ f, fs' = fs.put path (some f) ∧ f.im = o.blank := by
  obtain ⟨d, p, wm, hp⟩ := prepare_ready hr hd h
  have hc := openCheck_canOpen hopen
  refine ⟨⟨_, .interp hp hc rfl hin⟩, ?_⟩
  intro fs' r hpr
  cases hpr with
  | before h => rw [hp] at h; cases h
  | refused h h' => rw [hc] at h'; cases h'
  | fault h h' h'' => cases h''
  | interp h h' h'' hni => rw [hc] at h'; cases h'; exact ⟨rfl, _, rfl, rfl⟩
  | stopped left h h' h'' h3 hst _ => exact absurd h3 hin
  | done h h' h'' h3 => exact absurd h3 hin

/-! ## Example -/

/-- A DEM of 3 by 4 pixels of 2 m, without an elevation at (1, 1); the footprint of the camera is pixels (1..2, 1..2); an image of 2 by 2 pixels, whose
pixel (`i`, `j`) is seen at row 1 + `i` and column 1 + `j` of the DEM, except the one at (2, 2), which is out of its view. -/
def demoObj : Obj ℚ (List ℚ) where
  cam _ := {
    w2p := fun x y z => match x, y, z with
      | some x, some y, some _ => (some ((x - 103) / 2), some ((197 - y) / 2))
      | _, _, _ => (none, none)
    f32 := id
    samp := fun src j i => if j < 0 ∨ i < 0 ∨ (j = 1 ∧ i = 1) then none else (src[(2 * i + j).num.toNat]?).map some }
  frame := true
  distort := true
  pinhole := false
  read _ _ b := [[50, 60, 70, 80], [51, 61, 71, 81]].getD (b - 1) []
  srcErr := none
  srcH := 2
  srcW := 2
  count := 2
  srcDtype := "uint8"
  colors := ["red", "green"]
  dem := ⟨0, 3, 4, ⟨2, 0, 100, 0, -2, 200⟩⟩
  crsEqual := true
  gsd := 2
  crs := "EPSG:32735"
  orthoSize := (8, 6)
  reproject _ _ d := d
  poly _ _ := demoMask.poly
  fillPoly _ _ := demoMask.fillPoly
  info p := ⟨match Dict.get? p "width" with
    | some (.nat n) => n
    | _ => 0, match Dict.get? p "height" with
    | some (.nat n) => n
    | _ => 0, false, none, (512, 512)⟩
  blank := ⟨fun _ _ _ => none, fun _ _ => false⟩

def demoArgs : Args ℚ := ⟨.path "ortho.tif", none, "cubic", "cubic", false, some true, none, none, true, [], "gtiff", false⟩

def demoMem : Mem ℚ := ⟨fun _ => demoMask.arr, 1⟩

theorem demo_infoOk : InfoOk demoObj := by
  refine ⟨fun p n h => ?_, fun p n h => ?_, fun p => ?_⟩
  · simp [demoObj, h]
  · simp [demoObj, h]
  · simp [demoObj, resolveBlock]

theorem demo_small : ∀ p, SmallTiles (demoObj.info p) := by
  intro p
  simp [demoObj, SmallTiles, resolveBlock]

theorem demo_nan : demoObj.NanUnseen := by
  intro _ _ b x y
  simp [Obj.seen, demoObj]

theorem demo_demAt {c : Call ℚ} {d : DemOut ℚ} (h : DemAt demoObj.dem demoObj.crsEqual c demoMem d) (hc : c.reproject = fun d => d) :
    d = ⟨demoMask.arr, 3, 4, ⟨2, 0, 100, 0, -2, 200⟩⟩ := by
  rcases h with ⟨-, -, -, rfl⟩ | ⟨-, rfl⟩
  · rfl
  · rw [hc]; rfl

theorem demo_inView (i j : ℕ) : demoObj.InView demoArgs (2, 2) ⟨demoMask.arr, 3, 4, ⟨2, 0, 100, 0, -2, 200⟩⟩ i j ↔
    (1 ≤ i ∧ 1 ≤ j ∧ j ≤ 2) ∧ ¬ (i = 1 ∧ j = 1) := by
  have hp : polyJi (maskArgs (demoObj.call demoArgs.demInterp (2, 2)) ⟨demoMask.arr, 3, 4, ⟨2, 0, 100, 0, -2, 200⟩⟩) = [(1, 1), (2, 2)] := by
    decide +kernel
  unfold Obj.InView Kept
  rw [hp]
  simp only [maskArgs, Obj.call, demoObj, demoMask, decide_eq_true_eq, true_and]
  by_cases h : i = 1 ∧ j = 1 <;> simp [h]

theorem demo_ready : Ready demoObj demoArgs demoMem (2, 2) "uint8" := by
  refine ⟨rfl, by decide, Or.inr ⟨by decide +kernel, by decide +kernel⟩, ?_, ⟨by decide, by decide, Or.inr (Or.inl rfl)⟩⟩
  intro d hd
  rw [demo_demAt hd rfl]
  exact ⟨2, by decide, 2, by decide, (demo_inView 2 2).2 (by decide)⟩

/-- `C82_size_fails` for the example with a source image that is 32767 pixels wide. -/
example (fs' : FS (OrthoFile ℚ)) (r : Res Unit) (h : Process { demoObj with srcW := 32767 } demoArgs demoMem (fun _ => none) none fs' r) :
    r = .error .runtimeError ∧ ∃ f, fs' "ortho.tif" = some f :=
  C82_size_fails { demoObj with srcW := 32767 } demoArgs demoMem (fun _ => none) ⟨demo_infoOk.height, demo_infoOk.width, demo_infoOk.block⟩
    ⟨by simp [Dict.Ok, demoArgs], by decide⟩ "ortho.tif" (2, 2) "uint8" (Or.inr ⟨rfl, rfl⟩) (Or.inr ⟨Or.inl rfl, rfl⟩)
    ⟨demo_ready.1, demo_ready.2, demo_ready.3, demo_ready.4, demo_ready.5⟩ ⟨Or.inl rfl, Or.inr rfl⟩ (by decide) (by decide)
    ⟨by decide, by decide⟩ (.inr rfl) fs' r h

/-- The example completes; the ortho has 2 by 2 pixels, with nodata at (0, 0), which has no elevation, and at (1, 1), which is not seen, and the source
elsewhere. -/
example : ∃ fs', Process demoObj demoArgs demoMem (fun _ => none) none fs' (.ok ()) ∧ ∃ f, fs' "ortho.tif" = some f ∧
    f.crs = "EPSG:32735" ∧ f.im.data 1 0 1 = some 60 ∧ f.im.data 2 1 0 = some 71 ∧ f.im.data 1 0 0 = some 0 ∧ f.im.data 2 1 1 = some 0 ∧
    (∀ q ≠ "ortho.tif", fs' q = none) := by
  have ho : OptsOk demoArgs.opts := ⟨by simp [Dict.Ok, demoArgs], by decide⟩
  obtain ⟨⟨fs', h⟩, -⟩ := C82_completes demoObj demoArgs demoMem (fun _ => none) demo_infoOk ho "ortho.tif" (2, 2) "uint8"
    (Or.inr ⟨rfl, rfl⟩) (Or.inr ⟨Or.inl rfl, rfl⟩) demo_ready ⟨Or.inl rfl, Or.inr rfl⟩ (by decide) ⟨by decide, by decide⟩ demo_small
  obtain ⟨res, dtype, nd, f, d, hh, w, r0, c0, h1, h2, h3, h4, -, h6, -, -, h9⟩ := C82_pixels demoObj demoArgs demoMem _ fs' none demo_infoOk demo_nan ho
    "ortho.tif" (Or.inl rfl) (Or.inr (Or.inl rfl)) h
  obtain rfl : res = (2, 2) := by
    rcases h2.resolution with e | e
    · cases e
    · exact e.2
  obtain rfl : dtype = "uint8" := by
    rcases h2.type with e | e
    · cases e.1
    · exact e.2
  obtain rfl : nd = some 0 := by
    rcases h2.nodata with e | e | e
    · exact e.2
    · exact absurd e.1 (by decide)
    · exact absurd e.1 (by decide)
  obtain rfl := demo_demAt h3 rfl
  have q1 := h4.all 1 (by decide) 2 (by decide) ((demo_inView 1 2).2 (by decide))
  have q2 := h4.all 2 (by decide) 1 (by decide) ((demo_inView 2 1).2 (by decide))
  have q3 := h4.all 2 (by decide) 2 (by decide) ((demo_inView 2 2).2 (by decide))
  have q4 := h4.inside
  obtain ⟨⟨j1, -, t1⟩, -, ⟨i1, -, t2⟩, -⟩ := h4.tight
  rw [demo_inView] at t1 t2
  obtain rfl : r0 = 1 := by omega
  obtain rfl : c0 = 1 := by omega
  refine ⟨fs', h, f, by rw [h1]; exact if_pos rfl, h6, ?_, ?_, ?_, ?_, fun q hq => by rw [h1]; exact if_neg hq⟩
  all_goals
    rw [h9 _ _ _ (by decide) (by decide) (by omega) (by omega)]
    unfold Obj.ground
    first
    | rw [if_pos ((demo_inView _ _).2 (by decide))]
      decide +kernel
    | rw [if_neg (fun hv => absurd ((demo_inView _ _).1 hv) (by decide))]

end Verif.OrthoProcess
