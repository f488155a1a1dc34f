import Verif.PanSharp.Formula
import Verif.PanSharp.Params
import Verif.PanSharp.Faults
import Verif.PanSharp.Grids
import Verif.Ortho.Process

/-!
# C83: `PanSharpen.process` from start to end
-/

set_option autoImplicit false
set_option linter.unusedSectionVars false

namespace Verif.PanProcess

open Verif.PanSharp Verif.Common Verif.Tiles Verif.Files
open Verif.Ortho (Pix)
open Verif.OrthoProcess (Names OptsOk ProfileOk ProfileArgsOk CanOpen interps profile_ok createProfile_ok openCheck_names openCheck_canOpen)

variable {C : Type}

/-! ## Model -/

/-- A `PanSharpen` object (orthority/pan_sharp.py:69-79) and its images.  `pan`, `ms` and `grids` are the rasters and what `_get_vrt_profiles` makes of them.
`panErr` and `msErr` are exceptions of opening the images.  `alpha`, `colors` and `msDtype` are colour interpretations (by band, from 0) and data type of the MS image.
The next four are bands as the WarpedVRTs give them: pan averaged to the MS grid, MS on the MS grid, pan on the pan grid, and MS interpolated to the pan
grid.  `statErr` and `tileErr` tell which tiles cannot be read.  `ls` is `np.linalg.lstsq`; `few` is the result of `_get_params` when the covariances are NaN
(one valid pixel, C47); `env` is number conversion; `info` gives the block shapes of a dataset from its profile, `blank` is a new image. -/
structure Obj (C : Type) where
  pan : Raster ℝ C
  ms : Raster ℝ C
  grids : Grids ℝ
  panErr : Option PyErr
  msErr : Option PyErr
  panCount : ℕ
  msCount : ℕ
  alpha : ℕ → Bool
  colors : ℕ → String
  msDtype : String
  panToMs : ℤ → ℕ → ℕ → Pix ℝ
  msToMs : ℤ → ℕ → ℕ → Pix ℝ
  panToPan : ℤ → ℕ → ℕ → Pix ℝ
  msToPan : String → ℤ → ℕ → ℕ → Pix ℝ
  statErr : Win → Option PyErr
  tileErr : Win → Option PyErr
  ls : List (List ℝ) → List ℝ → List ℝ
  few : ℕ → Res (Params (Fl ℝ))
  env : CastEnv ℝ
  info : Profile → ImInfo
  blank : ℕ → ℕ → OutCell ℝ

/-- Arguments of `PanSharpen.process`, orthority/pan_sharp.py:517-532. -/
structure Args where
  file : Target
  panIndex : ℤ
  msIndexes : Option (List ℤ)
  weights : Option (List ℝ)
  interp : String
  writeMask : Option Bool
  dtype : Option String
  compress : Option String
  buildOvw : Bool
  opts : Dict String PVal
  driver : String
  overwrite : Bool

/-- What a pan-sharpened image file holds. -/
structure PanFile (C : Type) where
  profile : Profile
  crs : Option C
  transform : Affine ℝ
  im : ℕ → ℕ → OutCell ℝ
  colors : List String
  ovw : List ℕ

/-- `dtype or ms_im.dtypes[0]`, orthority/pan_sharp.py:611. -/
def dtypeOf (o : Obj C) (a : Args) : String :=
  match a.dtype with
  | some s => if s = "" then o.msDtype else s
  | none => o.msDtype

/-- Height and width of the pan grid, the items of `pan_profile` at orthority/pan_sharp.py:615. -/
def panSize (o : Obj C) : ℕ × ℕ := (o.grids.panWin.height.toNat, o.grids.panWin.width.toNat)

/-- What is known before the output is opened. -/
structure Plan where
  ix : List ℤ
  w : Option (List ℝ)
  p : Profile
  wm : Bool

/-- orthority/pan_sharp.py:596-620, what is done before the output is opened. -/
noncomputable def prepare (o : Obj C) (a : Args) : Res Plan :=
  if a.interp ∉ interps then .error .valueError
  else match o.panErr with
    | some e => .error e
    | none => match o.msErr with
      | some e => .error e
      | none => match validateParams o.panCount o.msCount o.alpha a.panIndex a.msIndexes a.weights with
        | .error e => .error e
        | .ok (ix, w) =>
          match createProfile a.driver ix.length (panSize o).1 (panSize o).2 (dtypeOf o a) a.compress a.writeMask a.opts with
          | .error e => .error e
          | .ok (p, wm) => .ok ⟨ix, w, p, wm⟩

/-- The images on the MS grid, orthority/pan_sharp.py:276-279: WarpedVRTs with the profiles `pan_to_ms` and `ms_to_ms`. -/
def onMs (o : Obj C) (panIndex : ℤ) (ix : List ℤ) : Images ℝ := ⟨ix.length, o.panToMs panIndex, fun b => o.msToMs (ix.getD b 0)⟩

/-- The images on the pan grid, orthority/pan_sharp.py:635-638: WarpedVRTs with the profiles `pan_to_pan` and `ms_to_pan`. -/
def onPan (o : Obj C) (panIndex : ℤ) (interp : String) (ix : List ℤ) : Images ℝ :=
  ⟨ix.length, o.panToPan panIndex, fun b => o.msToPan interp (ix.getD b 0)⟩

/-- The MS WarpedVRT on the MS grid as `block_windows` sees it.  Blocks are given, so the other fields are not used. -/
def msInfo (o : Obj C) : ImInfo := ⟨o.grids.msWin.width.toNat, o.grids.msWin.height.toNat, false, none, (512, 512)⟩

/-- Outcomes of `_get_stats`, orthority/pan_sharp.py:228-309: tiles complete in any order; `RuntimeError` when one fails. -/
inductive Stats (o : Obj C) (a : Args) (ix : List ℤ) : Res ((ℕ → ℝ) × (ℕ → ℕ → Fl ℝ)) → Prop
  | ok {ws order : List Win} : blockWindows (msInfo o) (some (1024, 1024)) = .ok ws → order.Perm ws → (∀ w ∈ ws, o.statErr w = none) →
      Stats o a ix (.ok ((onMs o a.panIndex ix).getStats order))
  | error {ws : List Win} {w : Win} {e : PyErr} : blockWindows (msInfo o) (some (1024, 1024)) = .ok ws → w ∈ ws → o.statErr w = some e →
      Stats o a ix (.error .runtimeError)

/-- `_get_params`, orthority/pan_sharp.py:311-416: see `getParams`; the covariances are all numbers or all NaN. -/
noncomputable def paramsOf (o : Obj C) (n : ℕ) (s : (ℕ → ℝ) × (ℕ → ℕ → Fl ℝ)) (w : Option (List ℝ)) : Res (Params (Fl ℝ)) :=
  match s.2 0 0 with
  | .nan => o.few n
  | .val _ => getParams o.ls n s.1 (fun i j => match s.2 i j with
    | .val x => x
    | .nan => 0) w

/-- The data type of the output; `create_profile` knows it when this is used. -/
def dtOf (s : String) : Dt :=
  match Dt.parse s with
  | .ok dt => dt
  | .error _ => .uint8

/-- The inputs of the tile workers, orthority/pan_sharp.py:633-655. -/
def sharpIn (o : Obj C) (a : Args) (x : Plan) (params : Params (Fl ℝ)) : SharpIn ℝ where
  im := onPan o a.panIndex a.interp x.ix
  params := params
  env := o.env
  dt := dtOf (dtypeOf o a)
  writeMask := x.wm
  out := o.info x.p
  readErr := o.tileErr

/-- The new image, orthority/pan_sharp.py:621-627: CRS and transform of the `pan_to_pan` profile, colours of the MS bands. -/
def created (o : Obj C) (x : Plan) : PanFile C :=
  ⟨x.p, o.pan.crs, o.grids.panT, o.blank, x.ix.map fun i => o.colors (i - 1).toNat, []⟩

/-- `PanSharpen.process`, orthority/pan_sharp.py:517-670: the file systems and results that it may end with.  `fault` is an exception of GDAL while the
output is opened.  After an exception of a tile worker the image is as it was at some moment (C85). -/
inductive Process (o : Obj C) (a : Args) (fs : FS (PanFile C)) (fault : Option (Fault (PanFile C))) : FS (PanFile C) → Res Unit → Prop
  | before {e : PyErr} : prepare o a = .error e → Process o a fs fault fs (.error e)
  | refused {x : Plan} {e : PyErr} : prepare o a = .ok x → openCheck fs "w" "wb" a.overwrite a.file = .error e →
      Process o a fs fault fs (.error e)
  | fault {x : Plan} {path : String} {f : Fault (PanFile C)} : prepare o a = .ok x →
      openCheck fs "w" "wb" a.overwrite a.file = .ok path → fault = some f → Process o a fs fault (fs.put path f.left) (.error f.err)
  | stats {x : Plan} {path : String} {e : PyErr} : prepare o a = .ok x → openCheck fs "w" "wb" a.overwrite a.file = .ok path →
      fault = none → Stats o a x.ix (.error e) → Process o a fs fault (fs.put path (some (created o x))) (.error e)
  | params {x : Plan} {path : String} {s : (ℕ → ℝ) × (ℕ → ℕ → Fl ℝ)} {e : PyErr} : prepare o a = .ok x →
      openCheck fs "w" "wb" a.overwrite a.file = .ok path → fault = none → Stats o a x.ix (.ok s) →
      paramsOf o x.ix.length s x.w = .error e → Process o a fs fault (fs.put path (some (created o x))) (.error e)
  | stopped {x : Plan} {path : String} {s : (ℕ → ℝ) × (ℕ → ℕ → Fl ℝ)} {params : Params (Fl ℝ)} {e : PyErr} (left : ℕ → ℕ → OutCell ℝ) :
      prepare o a = .ok x → openCheck fs "w" "wb" a.overwrite a.file = .ok path → fault = none → Stats o a x.ix (.ok s) →
      paramsOf o x.ix.length s x.w = .ok params → Sharpened (sharpIn o a x params) o.blank (.error e) →
      SMoment (sharpIn o a x params) o.blank left → Process o a fs fault (fs.put path (some { created o x with im := left })) (.error e)
  | done {x : Plan} {path : String} {s : (ℕ → ℝ) × (ℕ → ℕ → Fl ℝ)} {params : Params (Fl ℝ)} {im : ℕ → ℕ → OutCell ℝ} :
      prepare o a = .ok x → openCheck fs "w" "wb" a.overwrite a.file = .ok path → fault = none → Stats o a x.ix (.ok s) →
      paramsOf o x.ix.length s x.w = .ok params → Sharpened (sharpIn o a x params) o.blank (.ok im) →
      Process o a fs fault (fs.put path (some { created o x with
        im := im, ovw := if a.buildOvw then overviewLevels (panSize o).1 (panSize o).2 8 256 else [] })) (.ok ())

/-! ## Specification -/

/-- `grids` are those that the constructor makes of the images, with GDAL's `transform_bounds` as `tb`. -/
def Made (tb : Option C → Option C → Bnds ℝ → Res (Bnds ℝ)) (o : Obj C) : Prop := getGrids tb o.pan o.ms = .ok o.grids

/-- Block shapes that GDAL gives a dataset with the profile: its size is that of the profile, and blocks are not empty. -/
structure InfoOk (o : Obj C) : Prop where
  height : ∀ p n, Dict.get? p "height" = some (.nat n) → (o.info p).height = n
  width : ∀ p n, Dict.get? p "width" = some (.nat n) → (o.info p).width = n
  block : ∀ p, 0 < (resolveBlock (o.info p) none).1 ∧ 0 < (resolveBlock (o.info p) none).2

/-- The bands `ix`, weights `w`, data type `dt` and internal mask `wm` that `process` uses: those of its arguments or their defaults. -/
structure Choice (o : Obj C) (a : Args) (ix : List ℤ) (w : Option (List ℝ)) (dtype : String) (dt : Dt) (wm : Bool) : Prop where
  bands : BandsFor o.msCount o.alpha a.msIndexes ix
  range : (1 ≤ a.panIndex ∧ a.panIndex ≤ o.panCount) ∧ ∀ i ∈ ix, 1 ≤ i ∧ i ≤ o.msCount
  weights : WeightsFor a.weights w
  nonneg : ∀ l, w = some l → l.length = ix.length ∧ ∀ x ∈ l, 0 ≤ x
  type : (a.dtype = some dtype ∧ dtype ≠ "") ∨ ((a.dtype = none ∨ a.dtype = some "") ∧ dtype = o.msDtype)
  dt : dtype = dt.name
  mask : ∀ b, a.writeMask = some b → wm = b

/-- Pixel (`r`, `c`) of the pan grid has the pan value `x` and values `m` in the MS bands `ix`. -/
def Obj.Has (o : Obj C) (a : Args) (ix : List ℤ) (r c : ℕ) (x : ℝ) (m : ℕ → ℝ) : Prop :=
  o.panToPan a.panIndex r c = some x ∧ ∀ k < ix.length, o.msToPan a.interp (ix.getD k 0) r c = some (m k)

/-- The pixels of the MS grid that have pan and MS values, and these values: pan, then the MS bands. -/
def Obj.P (o : Obj C) (a : Args) (ix : List ℤ) : Finset (ℕ × ℕ) :=
  (Finset.range o.grids.msWin.height.toNat ×ˢ Finset.range o.grids.msWin.width.toNat).filter fun p =>
    (o.panToMs a.panIndex p.1 p.2).isSome ∧ ∀ i ∈ ix, (o.msToMs i p.1 p.2).isSome

/-- Value `i` of a pixel of the MS grid: pan for `i` 0, and MS band `ix[i - 1]` otherwise. -/
def Obj.v (o : Obj C) (a : Args) (ix : List ℤ) (p : ℕ × ℕ) : ℕ → ℝ
  | 0 => (o.panToMs a.panIndex p.1 p.2).getD 0
  | b + 1 => (o.msToMs (ix.getD b 0) p.1 p.2).getD 0

/-- The statistics are good: two or more pixels, pan is not constant, and no combination of MS bands is. -/
structure Obj.Good (o : Obj C) (a : Args) (ix : List ℤ) : Prop where
  two : 2 ≤ (o.P a ix).card
  pan : batchCov (o.P a ix) (o.v a ix) 0 0 ≠ 0
  ms : Definite ix.length (batchCov (o.P a ix) (fun q b => o.v a ix q (b + 1)))

/-! ## Lemmas -/

theorem v_eq (o : Obj C) (a : Args) (ix : List ℤ) : o.v a ix = (onMs o a.panIndex ix).vec := by
  funext p i
  cases i <;> rfl

theorem P_eq (o : Obj C) (a : Args) (ix : List ℤ) :
    o.P a ix = (onMs o a.panIndex ix).validPix o.grids.msWin.height.toNat o.grids.msWin.width.toNat := by
  ext p
  have e : (∀ i ∈ ix, (o.msToMs i p.1 p.2).isSome = true) ↔ ∀ b < ix.length, o.msToMs (ix.getD b 0) p.1 p.2 ≠ none := by
    simp only [Option.isSome_iff_ne_none]
    constructor
    · intro h b hb
      exact h _ (by simp [List.getD, hb])
    · intro h i hi
      obtain ⟨b, hb, rfl⟩ := List.getElem_of_mem hi
      have := h b hb
      simpa [List.getD, hb] using this
  unfold Obj.P Images.validPix
  rw [Finset.mem_filter, Finset.mem_filter, e, Option.isSome_iff_ne_none]
  rfl

theorem dt_name {s : String} {dt : Dt} (h : Dt.parse s = .ok dt) : s = dt.name := by
  unfold Dt.parse at h
  split_ifs at h <;> cases h <;> assumption

theorem prepare_ok {o : Obj C} {a : Args} {x : Plan} (h : prepare o a = .ok x) :
    a.interp ∈ interps ∧ o.panErr = none ∧ o.msErr = none ∧
      validateParams o.panCount o.msCount o.alpha a.panIndex a.msIndexes a.weights = .ok (x.ix, x.w) ∧
      createProfile a.driver x.ix.length (panSize o).1 (panSize o).2 (dtypeOf o a) a.compress a.writeMask a.opts = .ok (x.p, x.wm) := by
  unfold prepare at h
  split_ifs at h with hi
  cases h1 : o.panErr with
  | some e => simp [h1] at h
  | none =>
    cases h2 : o.msErr with
    | some e => simp [h1, h2] at h
    | none =>
      simp only [h1, h2] at h
      cases hv : validateParams o.panCount o.msCount o.alpha a.panIndex a.msIndexes a.weights with
      | error e => simp [hv] at h
      | ok q =>
        obtain ⟨ix, w⟩ := q
        simp only [hv] at h
        cases hp : createProfile a.driver ix.length (panSize o).1 (panSize o).2 (dtypeOf o a) a.compress a.writeMask a.opts with
        | error e => simp [hp] at h
        | ok q =>
          obtain ⟨p, wm⟩ := q
          simp only [hp, Except.ok.injEq] at h
          subst h
          exact ⟨hi, rfl, rfl, rfl, hp⟩

theorem validate_spec {o : Obj C} {a : Args} {ix : List ℤ} {w : Option (List ℝ)}
    (h : validateParams o.panCount o.msCount o.alpha a.panIndex a.msIndexes a.weights = .ok (ix, w)) :
    BandsFor o.msCount o.alpha a.msIndexes ix ∧ WeightsFor a.weights w ∧
      ((1 ≤ a.panIndex ∧ a.panIndex ≤ o.panCount) ∧ (∀ i ∈ ix, 1 ≤ i ∧ i ≤ o.msCount) ∧
        ∀ l, w = some l → l.length = ix.length ∧ ∀ x ∈ l, 0 ≤ x) := by
  have hw : ∃ w', WeightsFor a.weights w' := by
    match hq : a.weights with
    | none => exact ⟨none, .inr ⟨.inl rfl, rfl⟩⟩
    | some [] => exact ⟨none, .inr ⟨.inr rfl, rfl⟩⟩
    | some (x :: l) => exact ⟨_, .inl ⟨_, rfl, by simp, rfl⟩⟩
  obtain ⟨w', hw'⟩ := hw
  have hb := bandsFor_resolve o.msCount o.alpha a.msIndexes
  have hc := C51_accepts o.panCount o.msCount o.alpha a.panIndex a.msIndexes a.weights _ w' hb hw'
  rcases hc.2 with he | he
  · rw [he] at h; cases h
  · have h2 := hc.1.1 he
    rw [he] at h
    cases h
    exact ⟨hb, hw', h2⟩

theorem choice {o : Obj C} {a : Args} {x : Plan} (h : prepare o a = .ok x) :
    Choice o a x.ix x.w (dtypeOf o a) (dtOf (dtypeOf o a)) x.wm := by
  obtain ⟨-, -, -, hv, hp⟩ := prepare_ok h
  obtain ⟨h1, h2, h3, h4, h5⟩ := validate_spec hv
  refine ⟨h1, ⟨h3, h4⟩, h2, h5, ?_, ?_, ?_⟩
  · unfold dtypeOf
    cases hd : a.dtype with
    | none => exact Or.inr ⟨Or.inl rfl, rfl⟩
    | some s =>
      by_cases h0 : s = ""
      · subst h0
        exact Or.inr ⟨Or.inr rfl, by simp⟩
      · simp only [if_neg h0]
        exact Or.inl ⟨trivial, h0⟩
  · obtain ⟨dt, hdt, -⟩ := C12_nodata_or_mask hp
    unfold dtOf
    rw [hdt]
    exact dt_name hdt
  · intro b hb
    rw [hb] at hp
    exact Verif.OrthoProcess.createProfile_writeMask hp

theorem valid_iff {o : Obj C} {a : Args} {ix : List ℤ} {r c : ℕ} :
    (onPan o a.panIndex a.interp ix).Valid (r, c) ↔ ∃ x m, o.Has a ix r c x m := by
  unfold Images.Valid Obj.Has onPan
  simp only [Option.ne_none_iff_exists']
  constructor
  · rintro ⟨⟨x, hx⟩, hm⟩
    refine ⟨x, fun k => (o.msToPan a.interp (ix.getD k 0) r c).getD 0, hx, fun k hk => ?_⟩
    obtain ⟨y, hy⟩ := hm k hk
    simp only [hy, Option.getD_some]
  · rintro ⟨x, m, hx, hm⟩
    exact ⟨⟨x, hx⟩, fun k hk => ⟨_, hm k hk⟩⟩

theorem stats_error {o : Obj C} {a : Args} {ix : List ℤ} {e : PyErr} (h : Stats o a ix (.error e)) :
    e = .runtimeError ∧ ∃ w, o.statErr w ≠ none := by
  cases h with
  | error _ _ h => exact ⟨rfl, _, by rw [h]; simp⟩

theorem stats_ok {o : Obj C} {a : Args} {ix : List ℤ} {s : (ℕ → ℝ) × (ℕ → ℕ → Fl ℝ)} (h : Stats o a ix (.ok s)) (h2 : 2 ≤ (o.P a ix).card) :
    s = (batchMean (o.P a ix) (o.v a ix), fun i j => .val (batchCov (o.P a ix) (o.v a ix) i j)) := by
  cases h with
  | ok hw ho hr =>
    obtain ⟨h3, h4⟩ := C47_streaming (onMs o a.panIndex ix) (msInfo o) _ _ _ hw ho
    rw [v_eq, P_eq]
    rw [P_eq] at h2
    exact Prod.ext (funext h3) (funext fun i => funext fun j => h4 h2 i j)

theorem paramsOf_good {o : Obj C} {a : Args} {ix : List ℤ} {s : (ℕ → ℝ) × (ℕ → ℕ → Fl ℝ)} {w : Option (List ℝ)} (h : Stats o a ix (.ok s))
    (h2 : 2 ≤ (o.P a ix).card) :
    paramsOf o ix.length s w = getParams o.ls ix.length (batchMean (o.P a ix) (o.v a ix)) (batchCov (o.P a ix) (o.v a ix)) w := by
  rw [stats_ok h h2]
  rfl

/-- Everything that is known of a file that `process` made. -/
theorem process_ok {o : Obj C} {a : Args} {fs fs' : FS (PanFile C)} {fault : Option (Fault (PanFile C))} {path : String}
    (hn : Names a.file path) (h : Process o a fs fault fs' (.ok ())) :
    ∃ x s params im, prepare o a = .ok x ∧ Stats o a x.ix (.ok s) ∧ paramsOf o x.ix.length s x.w = .ok params ∧
      Sharpened (sharpIn o a x params) o.blank (.ok im) ∧
      fs' = fs.put path (some { created o x with
        im := im, ovw := if a.buildOvw then overviewLevels (panSize o).1 (panSize o).2 8 256 else [] }) := by
  cases h with
  | done h1 h2 h3 h4 h5 h6 =>
    obtain rfl := openCheck_names hn h2
    exact ⟨_, _, _, _, h1, h4, h5, h6, rfl⟩

/-! ## Theorems -/

/-- C83: a pan-sharpened image that `process` completes is at its path, on the pan grid, with the CRS of the pan image, one band for each MS band used with its
colour, and the data type, driver and overviews asked for.  Pixels without a value in pan or one of the bands are nodata in all bands, or zero with an
internal mask, which is then the mask.  No other file is changed. -/
theorem C83_file (o : Obj C) (a : Args) (fs fs' : FS (PanFile C)) (fault : Option (Fault (PanFile C))) (hi : InfoOk o) (ho : OptsOk a.opts)
    (path : String) (hn : Names a.file path) (h : Process o a fs fault fs' (.ok ())) :
    ∃ ix w dtype dt wm f height width, fs' = fs.put path (some f) ∧ Choice o a ix w dtype dt wm ∧ height = o.grids.panWin.height.toNat ∧
      width = o.grids.panWin.width.toNat ∧
      ProfileOk f.profile a.driver dtype ix.length height width ∧ f.crs = o.pan.crs ∧ f.transform = o.grids.panT ∧
      f.colors = ix.map (fun i => o.colors (i - 1).toNat) ∧ f.ovw = (if a.buildOvw = true then overviewLevels height width 8 256 else []) ∧
      Dict.get? f.profile "nodata" = some (if wm then .none else .nodata dt) ∧
      ∀ r < height, ∀ c < width, (wm = true → ((f.im r c).valid = true ↔ ∃ x m, o.Has a ix r c x m)) ∧
        ((¬ ∃ x m, o.Has a ix r c x m) → ∀ b < ix.length, (f.im r c).data b = if wm then zeroOf dt else nodataOf ℝ dt) := by
  obtain ⟨x, s, params, im, h1, -, -, h4, h5⟩ := process_ok hn h
  obtain ⟨-, -, -, hv, hp⟩ := prepare_ok h1
  have hpo := profile_ok ho hp
  refine ⟨x.ix, x.w, _, _, x.wm, _, _, _, h5, choice h1, rfl, rfl, hpo, rfl, rfl, rfl, rfl, ?_, ?_⟩
  · obtain ⟨dt, hdt, hnd⟩ := C12_nodata_or_mask hp
    unfold dtOf
    rw [hdt]
    exact hnd
  · intro r hr c hc
    have hpx := C52_pixels _ _ _ h4 r (by show r < (o.info x.p).height; rw [hi.height _ _ hpo.height]; exact hr) c
      (by show c < (o.info x.p).width; rw [hi.width _ _ hpo.width]; exact hc)
    have hval : (sharpIn o a x params).im.Valid (r, c) ↔ ∃ y m, o.Has a x.ix r c y m := valid_iff
    constructor
    · intro hm
      have h6 := hpx.2.1
      rw [show (sharpIn o a x params).writeMask = true from hm, if_pos rfl] at h6
      show (im r c).valid = true ↔ _
      rw [h6, decide_eq_true_eq, hval]
    · intro hno b hb
      have h6 := hpx.1 b
      rw [if_neg (fun e => hno (hval.1 e))] at h6
      exact h6

/-- C83: when the statistics are good, a pixel with values in pan and all bands holds, in the output type, the sharpened value of C50 with weights, gain and bias
from all pixels of the MS grid that have values; or, without usable weights, all such pixels hold what the type makes of NaN. -/
theorem C83_pixels (o : Obj C) (a : Args) (fs fs' : FS (PanFile C)) (fault : Option (Fault (PanFile C))) (hi : InfoOk o) (ho : OptsOk a.opts)
    (hls : IsLstsq o.ls) (path : String) (hn : Names a.file path)
    (hg : ∀ ix, BandsFor o.msCount o.alpha a.msIndexes ix → o.Good a ix) (h : Process o a fs fault fs' (.ok ())) :
    ∃ ix w dtype dt wm f, fs' = fs.put path (some f) ∧ Choice o a ix w dtype dt wm ∧
      ((∃ u g β, WeightsOf (o.P a ix) (o.v a ix) ix.length w u ∧ Matches (o.P a ix) (o.v a ix) ix.length u g β ∧
        ∀ r < o.grids.panWin.height.toNat, ∀ c < o.grids.panWin.width.toNat, ∀ x m, o.Has a ix r c x m → ∀ b < ix.length,
          (f.im r c).data b = convertDtype o.env .float64 dt (.fin (sharpened (o.P a ix) (o.v a ix) ix.length u g β x m b))) ∨
      ∀ r < o.grids.panWin.height.toNat, ∀ c < o.grids.panWin.width.toNat, ∀ x m, o.Has a ix r c x m → ∀ b < ix.length,
        (f.im r c).data b = convertDtype o.env .float64 dt .nan) := by
  obtain ⟨x, s, params, im, h1, h2, h3, h4, h5⟩ := process_ok hn h
  obtain ⟨-, -, -, hv, hp⟩ := prepare_ok h1
  have hch := choice h1
  have hpo := profile_ok ho hp
  have hgood := hg _ hch.bands
  rw [paramsOf_good h2 hgood.two] at h3
  refine ⟨x.ix, x.w, _, _, x.wm, _, h5, hch, ?_⟩
  have hpx : ∀ r < o.grids.panWin.height.toNat, ∀ c < o.grids.panWin.width.toNat, ∀ y m, o.Has a x.ix r c y m → ∀ b < x.ix.length,
      ∃ m' : ℕ → ℝ, (∀ k < x.ix.length, m' k = m k) ∧
      (im r c).data b = convertDtype o.env .float64 (dtOf (dtypeOf o a)) (toVal (sharpen x.ix.length params (.val y) (fun k => .val (m' k)) b)) := by
    intro r hr c hc y m hm b hb
    have h6 := (C52_pixels _ _ _ h4 r (by show r < (o.info x.p).height; rw [hi.height _ _ hpo.height]; exact hr) c
      (by show c < (o.info x.p).width; rw [hi.width _ _ hpo.width]; exact hc)).1 b
    have hval : (sharpIn o a x params).im.Valid (r, c) := valid_iff.2 ⟨y, m, hm⟩
    rw [if_pos hval] at h6
    refine ⟨fun k => (o.msToPan a.interp (x.ix.getD k 0) r c).getD 0, ?_, ?_⟩
    · intro k hk
      simp only [hm.2 k hk, Option.getD_some]
    · rw [h6]
      unfold sharpValue
      have e0 : (sharpIn o a x params).im.vec (r, c) 0 = y := by
        show (o.panToPan a.panIndex r c).getD 0 = y
        rw [hm.1]; rfl
      rw [e0]
      rfl
  have key := C50_formula (o.P a x.ix) hgood.two (o.v a x.ix) x.ix.length o.ls hls x.w hch.nonneg hgood.pan hgood.ms params h3
  rcases key with ⟨u, g, β, hw, hm, hf⟩ | hf
  · left
    refine ⟨u, g, β, hw, hm, ?_⟩
    intro r hr c hc y m hy b hb
    obtain ⟨m', hm', hd⟩ := hpx r hr c hc y m hy b hb
    show (im r c).data b = _
    rw [hd, hf _ _ _ hb]
    have e : sharpened (o.P a x.ix) (o.v a x.ix) x.ix.length u g β y m' b = sharpened (o.P a x.ix) (o.v a x.ix) x.ix.length u g β y m b := by
      unfold sharpened
      rw [hm' b hb, Finset.sum_congr rfl fun k hk => by rw [hm' k (Finset.mem_range.1 hk)]]
    rw [e]
    rfl
  · right
    intro r hr c hc y m hy b hb
    obtain ⟨m', hm', hd⟩ := hpx r hr c hc y m hy b hb
    show (im r c).data b = _
    rw [hd, hf _ _ _ hb]
    rfl

/-- C83: when pan is a combination of the MS bands with weights that are not negative, plus a constant, on the MS grid, then without weights from the user each
pixel of the output where the same relation holds is the interpolated MS pixel in the output type. -/
theorem C83_identity (o : Obj C) (a : Args) (fs fs' : FS (PanFile C)) (fault : Option (Fault (PanFile C))) (hi : InfoOk o) (ho : OptsOk a.opts)
    (hls : IsLstsq o.ls) (path : String) (hn : Names a.file path) (ix : List ℤ) (hix : BandsFor o.msCount o.alpha a.msIndexes ix)
    (hw : a.weights = none ∨ a.weights = some []) (hg : o.Good a ix) (u : ℕ → ℝ) (k : ℝ) (hu : ∀ b < ix.length, 0 ≤ u b)
    (hpos : ∃ b < ix.length, 0 < u b)
    (hpan : ∀ p ∈ o.P a ix, o.v a ix p 0 = (∑ b ∈ Finset.range ix.length, u b * o.v a ix p (b + 1)) + k)
    (h : Process o a fs fault fs' (.ok ())) :
    ∃ f dt, fs' = fs.put path (some f) ∧ Dict.get? f.profile "dtype" = some (.str dt.name) ∧
      ∀ r < o.grids.panWin.height.toNat, ∀ c < o.grids.panWin.width.toNat, ∀ x m, o.Has a ix r c x m →
        x = (∑ b ∈ Finset.range ix.length, u b * m b) + k → ∀ b < ix.length,
        (f.im r c).data b = convertDtype o.env .float64 dt (.fin (m b)) := by
  obtain ⟨x, s, params, im, h1, h2, h3, h4, h5⟩ := process_ok hn h
  obtain ⟨-, -, -, hv, hp⟩ := prepare_ok h1
  have hch := choice h1
  obtain rfl := bandsFor_unique hch.bands hix
  have hpo := profile_ok ho hp
  rw [paramsOf_good h2 hg.two] at h3
  have hw0 : x.w = none := by
    rcases hch.weights with ⟨l, e1, e2, -⟩ | ⟨-, e⟩
    · rcases hw with e | e <;> rw [e] at e1
      · cases e1
      · exact absurd (Option.some.inj e1).symm e2
    · exact e
  rw [hw0] at h3
  obtain ⟨params', hp', hid⟩ := C62_identity (o.P a x.ix) hg.two (o.v a x.ix) x.ix.length u k hu hpos hpan hg.ms o.ls hls
  rw [h3] at hp'
  obtain rfl := Except.ok.inj hp'
  refine ⟨_, dtOf (dtypeOf o a), h5, by rw [← hch.dt]; exact hpo.dtype, ?_⟩
  intro r hr c hc y m hm hrel b hb
  have h6 := (C52_pixels _ _ _ h4 r (by show r < (o.info x.p).height; rw [hi.height _ _ hpo.height]; exact hr) c
    (by show c < (o.info x.p).width; rw [hi.width _ _ hpo.width]; exact hc)).1 b
  have hval : (sharpIn o a x params).im.Valid (r, c) := valid_iff.2 ⟨y, m, hm⟩
  rw [if_pos hval] at h6
  have hm' : ∀ k < x.ix.length, (o.msToPan a.interp (x.ix.getD k 0) r c).getD 0 = m k := fun k hk => by rw [hm.2 k hk]; rfl
  show (im r c).data b = _
  rw [h6]
  unfold sharpValue
  have e0 : (sharpIn o a x params).im.vec (r, c) 0 = y := by
    show (o.panToPan a.panIndex r c).getD 0 = y
    rw [hm.1]; rfl
  have e1 := hid y (fun k => (o.msToPan a.interp (x.ix.getD k 0) r c).getD 0)
    (by rw [hrel]; congr 1; exact Finset.sum_congr rfl fun k hk => by rw [hm' k (Finset.mem_range.1 hk)]) b hb
  rw [e0]
  show convertDtype o.env .float64 (dtOf (dtypeOf o a))
    (toVal (sharpen x.ix.length params (.val y) (fun k => .val ((o.msToPan a.interp (x.ix.getD k 0) r c).getD 0)) b)) = _
  rw [e1, hm' b hb]
  rfl

/-- C83: the result does not depend on the order in which tiles complete: two runs that complete make the same image. -/
theorem C83_deterministic (o : Obj C) (a : Args) (fs fs₁ fs₂ : FS (PanFile C)) (fault₁ fault₂ : Option (Fault (PanFile C))) (hi : InfoOk o)
    (ho : OptsOk a.opts) (path : String) (hn : Names a.file path) (h₁ : Process o a fs fault₁ fs₁ (.ok ())) (h₂ : Process o a fs fault₂ fs₂ (.ok ())) :
    ∃ f₁ f₂, fs₁ = fs.put path (some f₁) ∧ fs₂ = fs.put path (some f₂) ∧ f₁.profile = f₂.profile ∧ f₁.crs = f₂.crs ∧ f₁.transform = f₂.transform ∧
      f₁.colors = f₂.colors ∧ f₁.ovw = f₂.ovw ∧ ∀ r < o.grids.panWin.height.toNat, ∀ c < o.grids.panWin.width.toNat,
        (∀ b, (f₁.im r c).data b = (f₂.im r c).data b) ∧ (f₁.im r c).valid = (f₂.im r c).valid := by
  obtain ⟨x, s, params, im, h1, h2, h3, h4, h5⟩ := process_ok hn h₁
  obtain ⟨x', s', params', im', h1', h2', h3', h4', h5'⟩ := process_ok hn h₂
  rw [h1] at h1'
  obtain rfl := Except.ok.inj h1'
  have hs : s = s' := by
    cases h2 with
    | ok hw ho _ => cases h2' with
      | ok hw' ho' _ => exact C47_order_independent _ _ _ _ _ _ _ _ hw hw' ho ho'
  subst hs
  rw [h3] at h3'
  obtain rfl := Except.ok.inj h3'
  have hpo := profile_ok ho (prepare_ok h1).2.2.2.2
  refine ⟨_, _, h5, h5', rfl, rfl, rfl, rfl, rfl, ?_⟩
  intro r hr c hc
  exact C52_schedule_independent _ _ _ _ h4 h4' r (by show r < (o.info x.p).height; rw [hi.height _ _ hpo.height]; exact hr) c
    (by show c < (o.info x.p).width; rw [hi.width _ _ hpo.width]; exact hc)

/-- What `process` needs before it opens the output: images, an interpolation type, bands that the images have, weights that are not negative and one for each
band, and arguments that a profile can be made of. -/
structure Ready (o : Obj C) (a : Args) (ix : List ℤ) (w : Option (List ℝ)) (dtype : String) : Prop where
  images : o.panErr = none ∧ o.msErr = none
  interp : a.interp ∈ ["nearest", "average", "bilinear", "cubic", "lanczos"]
  bands : BandsFor o.msCount o.alpha a.msIndexes ix
  range : (1 ≤ a.panIndex ∧ a.panIndex ≤ o.panCount) ∧ ∀ i ∈ ix, 1 ≤ i ∧ i ≤ o.msCount
  weights : WeightsFor a.weights w
  nonneg : ∀ l, w = some l → l.length = ix.length ∧ ∀ x ∈ l, 0 ≤ x
  type : (a.dtype = some dtype ∧ dtype ≠ "") ∨ ((a.dtype = none ∨ a.dtype = some "") ∧ dtype = o.msDtype)
  profile : ProfileArgsOk a.driver a.compress a.opts dtype

theorem dtype_eq {o : Obj C} {a : Args} {dtype : String}
    (hd : (a.dtype = some dtype ∧ dtype ≠ "") ∨ ((a.dtype = none ∨ a.dtype = some "") ∧ dtype = o.msDtype)) : dtype = dtypeOf o a := by
  unfold dtypeOf
  rcases hd with ⟨e, e'⟩ | ⟨e | e, e'⟩ <;> simp [e, e']

theorem prepare_ready {o : Obj C} {a : Args} {ix : List ℤ} {w : Option (List ℝ)} {dtype : String} (h : Ready o a ix w dtype) :
    ∃ x, prepare o a = .ok x ∧ x.ix = ix ∧ x.w = w := by
  have hv := (C51_accepts o.panCount o.msCount o.alpha a.panIndex a.msIndexes a.weights ix w h.bands h.weights).1.2
    ⟨h.range.1, h.range.2, h.nonneg⟩
  obtain rfl := dtype_eq h.type
  obtain ⟨p, wm, hp⟩ := createProfile_ok h.profile a.writeMask ix.length (panSize o).1 (panSize o).2
  refine ⟨⟨ix, w, p, wm⟩, ?_, rfl, rfl⟩
  unfold prepare
  rw [if_neg (show ¬ a.interp ∉ interps from not_not.2 h.interp), h.images.1, h.images.2]
  simp only [hv, hp]

theorem stats_exists {o : Obj C} (a : Args) (ix : List ℤ) (hs : ∀ w, o.statErr w = none) : ∃ s, Stats o a ix (.ok s) := by
  obtain ⟨ws, hw⟩ := C01_tiles_defined (msInfo o) (some (1024, 1024)) (by simp [resolveBlock])
  exact ⟨_, .ok hw (List.Perm.refl _) fun w _ => hs w⟩

theorem getParams_total {ls : List (List ℝ) → List ℝ → List ℝ} {n : ℕ} {means : ℕ → ℝ} {cov : ℕ → ℕ → ℝ} {w : Option (List ℝ)}
    (h : n ≠ 1 ∨ w ≠ none) : ∃ p, getParams ls n means cov w = .ok p := by
  unfold getParams getWeights rawWeights
  cases w with
  | some l => exact ⟨_, rfl⟩
  | none =>
    have hn : n ≠ 1 := h.resolve_right fun e => e rfl
    simp only
    split_ifs <;> exact ⟨_, rfl⟩

/-- C83: when `process` has what it needs, the output can be opened, all tiles can be read, two or more pixels of the MS grid have values, and there are weights or
more than one band, it completes, and no order of its threads makes it fail. -/
theorem C83_completes (o : Obj C) (a : Args) (fs : FS (PanFile C)) (hi : InfoOk o) (path : String) (ix : List ℤ)
    (w : Option (List ℝ)) (dtype : String) (h : Ready o a ix w dtype) (hopen : CanOpen a.file a.overwrite fs path) (hs : ∀ w, o.statErr w = none)
    (ht : ∀ w, o.tileErr w = none) (h2 : 2 ≤ (o.P a ix).card) (hw : ix.length ≠ 1 ∨ w ≠ none) :
    (∃ fs', Process o a fs none fs' (.ok ())) ∧ ∀ fs' r, Process o a fs none fs' r → r = .ok () := by
  obtain ⟨x, hx, rfl, rfl⟩ := prepare_ready h
  have hc := openCheck_canOpen hopen
  have hpar : ∀ s, Stats o a x.ix (.ok s) → ∃ p, paramsOf o x.ix.length s x.w = .ok p := by
    intro s hst
    rw [paramsOf_good hst h2]
    exact getParams_total hw
  obtain ⟨s, hst⟩ := stats_exists a x.ix hs
  obtain ⟨p, hp⟩ := hpar s hst
  obtain ⟨im, him⟩ := C52_completes (sharpIn o a x p) o.blank (hi.block x.p) ht
  refine ⟨⟨_, .done hx hc rfl hst hp him⟩, ?_⟩
  intro fs' r hpr
  cases hpr with
  | before h => rw [hx] at h; cases h
  | refused h h' => rw [hc] at h'; cases h'
  | fault h h' h'' => cases h''
  | stats h h' h'' h3 =>
    obtain ⟨-, w', hw'⟩ := stats_error h3
    exact absurd (hs w') hw'
  | params h h' h'' h3 h4 =>
    rw [hx] at h
    cases h
    obtain ⟨p', hp'⟩ := hpar _ h3
    rw [hp'] at h4
    cases h4
  | stopped left h h' h'' h3 h4 h5 _ =>
    rw [hx] at h
    cases h
    rcases C52_errors _ _ _ h5 with ⟨-, w', hw'⟩ | hb
    · exact absurd (ht w') hw'
    · obtain ⟨ws, hws⟩ := C01_tiles_defined (o.info x.p) none (hi.block x.p)
      have hb' : blockWindows (o.info x.p) = .error _ := hb
      rw [hws] at hb'
      cases hb'
  | done => rfl

/-- C83: `process` changes no file but the one it writes.  It changes nothing when the interpolation type is not known, an image cannot be opened, a band is not in
its image, weights are negative or not as many as the bands, the driver or data type is not known, or the output exists and `overwrite` is not given. -/
theorem C83_files (o : Obj C) (a : Args) (fs fs' : FS (PanFile C)) (fault : Option (Fault (PanFile C))) (path : String)
    (hn : Names a.file path) (r : Res Unit) (h : Process o a fs fault fs' r) :
    (∀ q ≠ path, fs' q = fs q) ∧
    ((a.interp ∉ ["nearest", "average", "bilinear", "cubic", "lanczos"] ∨ o.panErr ≠ none ∨ o.msErr ≠ none ∨
      ¬ (1 ≤ a.panIndex ∧ a.panIndex ≤ o.panCount) ∨
      (∃ ix, BandsFor o.msCount o.alpha a.msIndexes ix ∧ ((∃ i ∈ ix, ¬ (1 ≤ i ∧ i ≤ o.msCount)) ∨
        ∃ l, a.weights = some l ∧ l ≠ [] ∧ (l.length ≠ ix.length ∨ ∃ x ∈ l, x < 0))) ∨
      a.driver ∉ ["gtiff", "cog"] ∨ (∃ s, a.dtype = some s ∧ s ∉ ["", "uint8", "uint16", "int16", "float32", "float64"]) ∨
      (a.overwrite = false ∧ fs path ≠ none)) → fs' = fs ∧ ∃ e, r = .error e) := by
  constructor
  · intro q hq
    cases h with
    | before => rfl
    | refused => rfl
    | fault _ h => rw [openCheck_names hn h]; exact if_neg hq
    | stats _ h => rw [openCheck_names hn h]; exact if_neg hq
    | params _ h => rw [openCheck_names hn h]; exact if_neg hq
    | stopped _ _ h => rw [openCheck_names hn h]; exact if_neg hq
    | done _ h => rw [openCheck_names hn h]; exact if_neg hq
  · intro hbad
    have key : ∀ x, prepare o a = .ok x → ∀ p, openCheck fs "w" "wb" a.overwrite a.file = .ok p → False := by
      intro x hp q hq
      obtain ⟨h1, h2, h3, -, h4⟩ := prepare_ok hp
      have hch := choice hp
      rcases hbad with hb | hb | hb | hb | ⟨ix, hix, hb⟩ | hb | ⟨s, hs, hb⟩ | ⟨ho, hb⟩
      · exact hb h1
      · exact hb h2
      · exact hb h3
      · exact hb hch.range.1
      · obtain rfl := bandsFor_unique hch.bands hix
        rcases hb with ⟨i, hi, hb⟩ | ⟨l, hl, hne, hb⟩
        · exact hb (hch.range.2 i hi)
        · have hw : x.w = some l := by
            rcases hch.weights with ⟨l', e1, -, e2⟩ | ⟨e | e, -⟩ <;> rw [hl] at *
            · rw [e2]; exact e1.symm
            · cases e
            · exact absurd (Option.some.inj e) hne
          obtain ⟨n1, n2⟩ := hch.nonneg l hw
          rcases hb with hb | ⟨y, hy, hb⟩
          · exact hb n1
          · exact absurd (n2 y hy) (not_le.2 hb)
      · refine hb ?_
        unfold createProfile at h4
        cases hdt : Dt.parse (dtypeOf o a) with
        | error e => simp [hdt] at h4
        | ok dt =>
          cases hdrv : Driver.parse a.driver with
          | error e => simp [hdt, hdrv] at h4
          | ok drv =>
            unfold Driver.parse at hdrv
            split_ifs at hdrv with e1 e2 <;> simp [*]
      · have hd : dtypeOf o a = s := by
          unfold dtypeOf
          rw [hs]
          exact if_neg fun e => hb (by simp [e])
        have := hch.dt
        rw [hd] at this
        refine hb ?_
        rw [this]
        cases dtOf s <;> decide
      · have := openCheck_names hn hq
        subst this
        have hi : (fs q).isSome = true := Option.isSome_iff_ne_none.2 hb
        rcases hn with e | ⟨mode, e⟩ <;> rw [e] at hq <;> simp only [openCheck] at hq <;> split_ifs at hq <;> simp_all
    cases h with
    | before => exact ⟨rfl, _, rfl⟩
    | refused => exact ⟨rfl, _, rfl⟩
    | fault h h' => exact (key _ h _ h').elim
    | stats h h' => exact (key _ h _ h').elim
    | params h h' => exact (key _ h _ h').elim
    | stopped _ h h' => exact (key _ h _ h').elim
    | done h h' => exact (key _ h _ h').elim

/-- C83: with one MS band that decreases as pan increases, and no weights from the user, `process` ends with a TypeError, but only after the output is made: a file
that was there is replaced by an image without data. -/
theorem C83_replaced_fails (o : Obj C) (a : Args) (fs : FS (PanFile C)) (hls : IsLstsq o.ls) (path : String) (ix : List ℤ) (dtype : String)
    (h : Ready o a ix none dtype) (hopen : CanOpen a.file a.overwrite fs path) (hs : ∀ w, o.statErr w = none) (h1 : ix.length = 1)
    (h2 : 2 ≤ (o.P a ix).card) (hvar : 0 < batchCov (o.P a ix) (o.v a ix) 1 1) (hneg : batchCov (o.P a ix) (o.v a ix) 0 1 < 0) :
    (∃ fs', Process o a fs none fs' (.error .typeError)) ∧
    ∀ fs' r, Process o a fs none fs' r → r = .error .typeError ∧ ∃ f, fs' = fs.put path (some f) ∧ f.im = o.blank := by
  obtain ⟨x, hx, rfl, hw⟩ := prepare_ready h
  have hc := openCheck_canOpen hopen
  have hpar : ∀ s, Stats o a x.ix (.ok s) → paramsOf o x.ix.length s x.w = .error .typeError := by
    intro s hst
    rw [paramsOf_good hst h2, hw, h1, getParams, C51_single_fails o.ls hls _ hvar hneg]
  obtain ⟨s, hst⟩ := stats_exists a x.ix hs
  refine ⟨⟨_, .params hx hc rfl hst (hpar s hst)⟩, ?_⟩
  intro fs' r hpr
  cases hpr with
  | before h => rw [hx] at h; cases h
  | refused h h' => rw [hc] at h'; cases h'
  | fault h h' h'' => cases h''
  | stats h h' h'' h3 =>
    obtain ⟨-, w', hw'⟩ := stats_error h3
    exact absurd (hs w') hw'
  | params h h' h'' h3 h4 =>
    rw [hx] at h
    cases h
    rw [hpar _ h3] at h4
    cases h4
    rw [hc] at h'
    cases h'
    exact ⟨rfl, _, rfl, rfl⟩
  | stopped left h h' h'' h3 h4 h5 _ =>
    rw [hx] at h
    cases h
    rw [hpar _ h3] at h4
    cases h4
  | done h h' h'' h3 h4 h5 =>
    rw [hx] at h
    cases h
    rw [hpar _ h3] at h4
    cases h4

/-- C83: when only the MS image is georeferenced, the output spans the MS image in the coordinates of its CRS, but it has no CRS.  (The warning says that the CRS of
the MS image is assumed for pan.) -/
theorem C83_crs_fails (tb : Option C → Option C → Bnds ℝ → Res (Bnds ℝ)) (o : Obj C) (hm : Made tb o) (a : Args) (fs fs' : FS (PanFile C))
    (fault : Option (Fault (PanFile C))) (hi : InfoOk o) (ho : OptsOk a.opts) (path : String) (hn : Names a.file path)
    (hsz : 0 < o.pan.w ∧ 0 < o.pan.h ∧ 0 < o.ms.w ∧ 0 < o.ms.h) (hms : o.ms.t.a ≠ 0 ∧ o.ms.t.e ≠ 0) (hcrs : o.ms.crs ≠ none)
    (hpan : o.pan.unreferenced) (h : Process o a fs fault fs' (.ok ())) :
    ∃ f, fs' = fs.put path (some f) ∧ f.crs = none ∧ Dict.get? f.profile "width" = some (.nat o.pan.w) ∧
      Dict.get? f.profile "height" = some (.nat o.pan.h) ∧
      ∀ s q, f.transform.apply (s * o.pan.w) (q * o.pan.h) = o.ms.t.apply (s * o.ms.w) (q * o.ms.h) := by
  obtain ⟨ix, w, dtype, dt, wm, f, height, width, h1, h2, rfl, rfl, h5, h6, h7, -⟩ := C83_file o a fs fs' fault hi ho path hn h
  have hmr : ¬ o.ms.unreferenced := fun e => hcrs (Option.isNone_iff_eq_none.1 e.1)
  obtain ⟨g1, g2, g3, g4, g5⟩ := (C53_pan_unreferenced tb o.pan o.ms hsz hms hmr hpan).1 _ hm
  refine ⟨f, h1, h6.trans (Option.isNone_iff_eq_none.1 hpan.1), ?_, ?_, ?_⟩
  · have := h5.width
    rw [g1] at this
    simpa using this
  · have := h5.height
    rw [g1] at this
    simpa using this
  · intro s q
    rw [h7, ← g5, g4]

/-! ## Example

An MS image of 2 x 2 pixels and two bands, and pan images of 4 x 4 pixels: pan band 1 is twice the sum of MS bands plus 7, pan band 2 decreases with MS
band 1.  The last MS pixel has no data. -/

def demoMs (i : ℤ) (r c : ℕ) : Pix ℝ := if r = 1 ∧ c = 1 then none else some (if r = 0 ∧ (c : ℤ) = i - 1 then 1 else 0)

noncomputable def demoPan (i : ℤ) (r c : ℕ) : Pix ℝ :=
  if r = 1 ∧ c = 1 then none else some (if i = 1 then (if r = 0 then 9 else 7) else if r = 0 ∧ c = 0 then 4 else 5)

noncomputable def demoObj (ls : List (List ℝ) → List ℝ → List ℝ) (pan : Raster ℝ ℕ) (g : Grids ℝ) : Obj ℕ where
  pan := pan
  ms := ⟨some 32735, ⟨2, 0, 10, 0, -2, 20⟩, 2, 2⟩
  grids := g
  panErr := none
  msErr := none
  panCount := 2
  msCount := 2
  alpha := fun _ => false
  colors := fun b => if b = 0 then "red" else "nir"
  msDtype := "float64"
  panToMs := demoPan
  msToMs := demoMs
  panToPan := fun i r c => demoPan i (r / 2) (c / 2)
  msToPan := fun _ i r c => demoMs i (r / 2) (c / 2)
  statErr := fun _ => none
  tileErr := fun _ => none
  ls := ls
  few := fun _ => .error .typeError
  env := ⟨.fin, fun _ _ => 0⟩
  info := fun p => ⟨match Dict.get? p "width" with
    | some (.nat n) => n
    | _ => 0, match Dict.get? p "height" with
    | some (.nat n) => n
    | _ => 0, false, none, (1, 3)⟩
  blank := fun _ _ => ⟨fun _ => .int 0, true, 0⟩

def demoArgs (panIndex : ℤ) (ix : Option (List ℤ)) : Args :=
  ⟨.path "sharp.tif", panIndex, ix, none, "cubic", none, none, some "deflate", true, [], "gtiff", true⟩

theorem demo_info (ls : List (List ℝ) → List ℝ → List ℝ) (pan : Raster ℝ ℕ) (g : Grids ℝ) : InfoOk (demoObj ls pan g) where
  height := by intro p n h; simp only [demoObj, h]
  width := by intro p n h; simp only [demoObj, h]
  block := by intro p; simp [demoObj, resolveBlock]

theorem demo_P (ls : List (List ℝ) → List ℝ → List ℝ) (pan : Raster ℝ ℕ) (g : Grids ℝ) (hg : g.msWin = ⟨0, 0, 2, 2⟩) (j : ℤ) (m : Option (List ℤ))
    (ix : List ℤ) : (demoObj ls pan g).P (demoArgs j m) ix = {(0, 0), (0, 1), (1, 0)} := by
  have e : ∀ p : ℕ × ℕ, (∀ i ∈ ix, ((demoObj ls pan g).msToMs i p.1 p.2).isSome = true) ↔ ¬ (p.1 = 1 ∧ p.2 = 1) ∨ ix = [] := by
    intro p
    by_cases h : p.1 = 1 ∧ p.2 = 1
    · simp [demoObj, demoMs, h, List.eq_nil_iff_forall_not_mem]
    · simp [demoObj, demoMs, h]
  ext p
  obtain ⟨r, c⟩ := p
  unfold Obj.P
  rw [Finset.mem_filter, e]
  simp only [Finset.mem_product, Finset.mem_range, Finset.mem_insert, Finset.mem_singleton, Prod.mk.injEq]
  rw [show (demoObj ls pan g).grids.msWin = ⟨0, 0, 2, 2⟩ from hg]
  have e2 : ((demoObj ls pan g).panToMs (demoArgs j m).panIndex r c).isSome = true ↔ ¬ (r = 1 ∧ c = 1) := by
    by_cases h : r = 1 ∧ c = 1 <;> simp [demoObj, demoPan, h]
  rw [e2]
  show ((r < 2 ∧ c < 2) ∧ _) ↔ _
  omega

theorem demo_ready (ls : List (List ℝ) → List ℝ → List ℝ) (pan : Raster ℝ ℕ) (g : Grids ℝ) (j : ℤ) (hj : 1 ≤ j ∧ j ≤ 2) (ix : List ℤ) (hne : ix ≠ [])
    (hix : ∀ i ∈ ix, 1 ≤ i ∧ i ≤ 2) : Ready (demoObj ls pan g) (demoArgs j (some ix)) ix none "float64" where
  images := ⟨rfl, rfl⟩
  interp := by simp [demoArgs]
  bands := .inl ⟨ix, rfl, hne, rfl⟩
  range := ⟨hj, hix⟩
  weights := .inr ⟨.inl rfl, rfl⟩
  nonneg := by intro l h; cases h
  type := .inr ⟨.inl rfl, rfl⟩
  profile := ⟨by simp [demoArgs], by decide, by simp [demoArgs]⟩

theorem demo_lstsq : ∃ ls : List (List ℝ) → List ℝ → List ℝ, IsLstsq ls := by
  classical
  refine ⟨fun A b => if h : ∃ x : List ℝ, x.length = b.length ∧ Solves A b x then h.choose
    else List.replicate b.length 0, ⟨fun A b => ?_, fun A b x h1 h2 => ?_⟩⟩
  · split
    · rename_i h; exact h.choose_spec.1
    · simp
  · have h : ∃ x : List ℝ, x.length = b.length ∧ Solves A b x := ⟨x, h1, h2⟩
    rw [dif_pos h]
    exact h.choose_spec.2

theorem demo_good (ls : List (List ℝ) → List ℝ → List ℝ) (pan : Raster ℝ ℕ) (g : Grids ℝ) (hg : g.msWin = ⟨0, 0, 2, 2⟩) (m : Option (List ℤ)) :
    (demoObj ls pan g).Good (demoArgs 1 m) [1, 2] := by
  refine ⟨?_, ?_, ?_⟩
  · rw [demo_P ls pan g hg]; decide
  · rw [demo_P ls pan g hg]
    norm_num [batchCov, batchDev, batchMean, Obj.v, demoObj, demoPan, demoArgs]
  · rw [demo_P ls pan g hg]
    intro x hx
    have e : ∀ i j : ℕ, i < 2 → j < 2 → batchCov ({(0, 0), (0, 1), (1, 0)} : Finset (ℕ × ℕ))
        (fun p b => (demoObj ls pan g).v (demoArgs 1 m) [1, 2] p (b + 1)) i j = if i = j then 1 / 3 else -1 / 6 := by
      intro i j hi hj
      interval_cases i <;> interval_cases j <;> norm_num [batchCov, batchDev, batchMean, Obj.v, demoObj, demoMs]
    simp only [List.length_cons, List.length_nil, Finset.sum_range_succ, Finset.range_zero, Finset.sum_empty, zero_add, e 0 0 (by omega) (by omega),
      e 0 1 (by omega) (by omega), e 1 0 (by omega) (by omega), e 1 1 (by omega) (by omega)]
    norm_num
    intro h
    have h1 : 3 * (x 0 - x 1) ^ 2 + (x 0 + x 1) ^ 2 = 0 := by linear_combination 12 * h
    have h2 : x 0 - x 1 = 0 := by nlinarith [sq_nonneg (x 0 - x 1), sq_nonneg (x 0 + x 1)]
    have h3 : x 0 + x 1 = 0 := by nlinarith [sq_nonneg (x 0 - x 1), sq_nonneg (x 0 + x 1)]
    obtain ⟨i, hi, hne⟩ := hx
    have hi : i < 2 := hi
    interval_cases i
    · exact hne (by linarith)
    · exact hne (by linarith)

/-- A pan image that is not georeferenced: `process` completes and makes the interpolated MS image, as `C83_identity` says; the output has no CRS. -/
example : ∃ (o : Obj ℕ) (tb : Option ℕ → Option ℕ → Bnds ℝ → Res (Bnds ℝ)) (fs' : FS (PanFile ℕ)) (f : PanFile ℕ), Made tb o ∧
    Process o (demoArgs 1 (some [1, 2])) (fun _ => none) none fs' (.ok ()) ∧ fs' "sharp.tif" = some f ∧ f.crs = none ∧
    (f.im 1 3).data 1 = .fin 1 ∧ (f.im 1 3).data 0 = .fin 0 ∧ f.transform.apply 4 4 = (⟨14, 16⟩ : ℝ × ℝ) := by
  obtain ⟨ls, hls⟩ := demo_lstsq
  let tb : Option ℕ → Option ℕ → Bnds ℝ → Res (Bnds ℝ) := fun _ _ b => .ok b
  let pan : Raster ℝ ℕ := ⟨none, ⟨1, 0, 0, 0, 1, 0⟩, 4, 4⟩
  let ms : Raster ℝ ℕ := ⟨some 32735, ⟨2, 0, 10, 0, -2, 20⟩, 2, 2⟩
  have hsz : 0 < pan.w ∧ 0 < pan.h ∧ 0 < ms.w ∧ 0 < ms.h := by simp [pan, ms]
  have hms : ms.t.a ≠ 0 ∧ ms.t.e ≠ 0 := by norm_num [ms]
  have hmr : ¬ ms.unreferenced := fun e => by simp [Raster.unreferenced, ms] at e
  have hpr : pan.unreferenced := by simp [Raster.unreferenced, pan, isIdentity]
  have hgr := C53_pan_unreferenced tb pan ms hsz hms hmr hpr
  obtain ⟨g, hg⟩ := hgr.2.2 (by simp [pan, ms])
  obtain ⟨g1, g2, -⟩ := hgr.1 g hg
  let o := demoObj ls pan g
  have hgm : g.msWin = ⟨0, 0, 2, 2⟩ := g2
  have hmade : Made tb o := hg
  have hready := demo_ready ls pan g 1 (by decide) [1, 2] (by decide) (by decide)
  have hgood := demo_good ls pan g hgm (some [1, 2])
  have hopen : CanOpen (demoArgs 1 (some [1, 2])).file (demoArgs 1 (some [1, 2])).overwrite (fun _ => none : FS (PanFile ℕ)) "sharp.tif" :=
    ⟨.inl rfl, .inl rfl⟩
  obtain ⟨⟨fs', hp⟩, -⟩ := C83_completes o _ _ (demo_info ls pan g) "sharp.tif" [1, 2] none "float64" hready hopen (fun _ => rfl) (fun _ => rfl)
    hgood.two (.inl (by decide))
  have hopts : OptsOk (demoArgs 1 (some [1, 2])).opts := ⟨by simp [Dict.Ok, demoArgs], by intro k _; rfl⟩
  obtain ⟨f, dt, hf, hdt, hid⟩ := C83_identity o _ _ _ _ (demo_info ls pan g) hopts hls "sharp.tif" (.inl rfl) [1, 2] hready.bands (.inl rfl) hgood
    (fun _ => 2) 7 (by norm_num) ⟨0, by decide, by norm_num⟩ (by
      rw [demo_P ls pan g hgm]
      intro p hp
      simp only [Finset.mem_insert, Finset.mem_singleton] at hp
      rcases hp with rfl | rfl | rfl <;> norm_num [Obj.v, o, demoObj, demoPan, demoMs, demoArgs, Finset.sum_range_succ]) hp
  obtain ⟨f', hf', hcrs, -, -, htr⟩ := C83_crs_fails tb o hmade _ _ _ _ (demo_info ls pan g) hopts "sharp.tif" (.inl rfl) hsz hms (by simp [o, demoObj]) hpr hp
  have hff : f' = f := by
    have := hf'.symm.trans hf
    have := congrFun this "sharp.tif"
    simpa [FS.put] using this
  subst hff
  have hdt' : dt = .float64 := by
    obtain ⟨ix, w, dtype, dt', wm, f'', -, -, h1, h2, rfl, rfl, h5, -⟩ := C83_file o _ _ _ _ (demo_info ls pan g) hopts "sharp.tif" (.inl rfl) hp
    have e : f'' = f' := by
      have := congrFun (h1.symm.trans hf) "sharp.tif"
      simpa [FS.put] using this
    have e2 : dtype = "float64" := by
      rcases h2.type with ⟨e, -⟩ | ⟨-, e⟩
      · cases e
      · exact e
    have e3 := h5.dtype
    rw [e, hdt, e2] at e3
    have e4 : dt.name = "float64" := by simpa using e3
    revert e4
    cases dt <;> decide
  subst hdt'
  have hhas : o.Has (demoArgs 1 (some [1, 2])) [1, 2] 1 3 9 (fun b => if b = 1 then 1 else 0) := by
    refine ⟨by norm_num [o, demoObj, demoPan, demoArgs], ?_⟩
    intro k hk
    have hk : k < 2 := hk
    interval_cases k <;> norm_num [o, demoObj, demoMs]
  have hd := hid 1 (by show 1 < g.panWin.height.toNat; rw [g1]; decide) 3 (by show 3 < g.panWin.width.toNat; rw [g1]; decide) 9 _ hhas
    (by norm_num [Finset.sum_range_succ])
  refine ⟨o, tb, fs', f', hmade, hp, ?_, hcrs, ?_, ?_, ?_⟩
  · rw [hf]; simp [FS.put]
  · have := hd 1 (by decide)
    simpa [convertDtype, canCastSafe] using this
  · have := hd 0 (by decide)
    simpa [convertDtype, canCastSafe] using this
  · have := htr 1 1
    norm_num [o, demoObj, pan, Affine.apply] at this ⊢
    exact this

/-- Pan decreases with the only band: the file that was there is lost. -/
example : ∃ (o : Obj ℕ) (fs : FS (PanFile ℕ)) (old : PanFile ℕ), fs "sharp.tif" = some old ∧ old.im = (fun _ _ => ⟨fun _ => .int 7, true, 1⟩) ∧
    (∃ fs', Process o (demoArgs 2 (some [1])) fs none fs' (.error .typeError)) ∧
    ∀ fs' r, Process o (demoArgs 2 (some [1])) fs none fs' r → ∃ f, fs' "sharp.tif" = some f ∧ f.im = o.blank := by
  obtain ⟨ls, hls⟩ := demo_lstsq
  let t : Affine ℝ := ⟨1, 0, 0, 0, -1, 0⟩
  let pan : Raster ℝ ℕ := ⟨some 32735, t, 4, 4⟩
  let g : Grids ℝ := ⟨t, t, ⟨0, 0, 4, 4⟩, ⟨0, 0, 2, 2⟩, t, t⟩
  let old : PanFile ℕ := ⟨[], none, t, fun _ _ => ⟨fun _ => .int 7, true, 1⟩, [], []⟩
  have hready := demo_ready ls pan g 2 (by decide) [1] (by decide) (by decide)
  have hP := demo_P ls pan g rfl 2 (some [1]) [1]
  obtain ⟨h1, h2⟩ := C83_replaced_fails (demoObj ls pan g) (demoArgs 2 (some [1])) (fun _ => some old) hls "sharp.tif" [1] "float64" hready
    ⟨.inl rfl, .inl rfl⟩ (fun _ => rfl) rfl (by rw [hP]; decide)
    (by rw [hP]; norm_num [batchCov, batchDev, batchMean, Obj.v, demoObj, demoMs])
    (by rw [hP]; norm_num [batchCov, batchDev, batchMean, Obj.v, demoObj, demoMs, demoPan, demoArgs])
  refine ⟨_, _, old, rfl, rfl, h1, ?_⟩
  intro fs' r h
  obtain ⟨-, f, hf, hi⟩ := h2 fs' r h
  exact ⟨f, by rw [hf]; simp [FS.put], hi⟩

end Verif.PanProcess
