import Verif.Cli.Errors
import Verif.PanSharp.Process

/-!
# C93: `oty sharpen` from its options to the file that it writes
-/

set_option autoImplicit false

namespace Verif.CommandSharp

open Verif.Cli Verif.PanSharp Verif.PanProcess Verif.Common Verif.Files
open Verif.OrthoProcess (Names OptsOk ProfileOk ProfileArgsOk CanOpen openCheck_names)

variable {C : Type}

/-! ## Model -/

/-- Options of `oty sharpen`, orthority/cli.py:1024-1141, as click passes them on.  `--ms-index` and `--weight` may be given any number of times, and are empty without
(`multiple=True`).  Simplified: weights are numbers (NaN: C59), and creation options are those of C59. -/
structure SharpOpts where
  outFile : String
  panIndex : ℤ
  msIndexes : List ℤ
  weights : List ℝ
  interp : String
  writeMask : Option Bool
  dtype : Option String
  compress : Option String
  buildOvw : Bool
  creation : Dict String PVal
  driver : String
  overwrite : Bool

/-- The arguments of `process` in orthority/cli.py:1207-1209.  `--out-file` is an `OpenFile` of mode `wb` (orthority/cli.py:1055, 185-195). -/
def SharpOpts.args (s : SharpOpts) : Args :=
  ⟨.ofile s.outFile "wb", s.panIndex, some s.msIndexes, some s.weights, s.interp, s.writeMask, s.dtype, s.compress, s.buildOvw, s.creation, s.driver,
    s.overwrite⟩

/-- `common.OpenRaster(file, 'r')` and the number of bands, orthority/cli.py:1175-1183. -/
def opened (err : Option PyErr) (count : ℕ) : Res ℕ :=
  match err with
  | some e => .error e
  | none => .ok count

/-- `PanSharpen(pan_im, ms_im)` and `process`, orthority/cli.py:1206-1209: `grids` of the object are made by the constructor (`tb` is GDAL's
`transform_bounds`). -/
inductive Run (tb : Option C → Option C → Bnds ℝ → Res (Bnds ℝ)) (o : Obj C) (a : Args) (fs : FS (PanFile C)) (fault : Option (Fault (PanFile C))) :
    FS (PanFile C) → Res Unit → Prop
  | init {e : PyErr} : getGrids tb o.pan o.ms = .error e → Run tb o a fs fault fs (.error e)
  | process {g : Grids ℝ} {fs' : FS (PanFile C)} {r : Res Unit} : getGrids tb o.pan o.ms = .ok g →
      Process { o with grids := g } a fs fault fs' r → Run tb o a fs fault fs' r

/-- `oty sharpen`, orthority/cli.py:1142-1211, with the callback of `--weight` (284-291): the file systems and results that it may end with.  `o` stands for the
two images; its `grids` are not used. -/
inductive Sharpen (tb : Option C → Option C → Bnds ℝ → Res (Bnds ℝ)) (o : Obj C) (s : SharpOpts) (fs : FS (PanFile C))
    (fault : Option (Fault (PanFile C))) : FS (PanFile C) → Res Unit → Prop
  | weights {e : PyErr} : weightsCb (some (s.weights.map some)) = .error e → Sharpen tb o s fs fault fs (.error e)
  | images {w : Option (List (Option ℝ))} {e : PyErr} : weightsCb (some (s.weights.map some)) = .ok w →
      sharpenCmd (opened o.panErr o.panCount) (opened o.msErr o.msCount) s.panIndex s.msIndexes (.ok ()) = .error e → Sharpen tb o s fs fault fs (.error e)
  | run {w : Option (List (Option ℝ))} {fs' : FS (PanFile C)} {r : Res Unit} : weightsCb (some (s.weights.map some)) = .ok w →
      sharpenCmd (opened o.panErr o.panCount) (opened o.msErr o.msCount) s.panIndex s.msIndexes (.ok ()) = .ok () →
      Run tb o s.args fs fault fs' r →
      Sharpen tb o s fs fault fs' (sharpenCmd (opened o.panErr o.panCount) (opened o.msErr o.msCount) s.panIndex s.msIndexes r)

/-! ## Specification -/

/-- The MS bands that are asked for: those of `--ms-index` in the order given, or all that are not alpha bands. -/
def Bands (o : Obj C) (s : SharpOpts) (ix : List ℤ) : Prop :=
  (s.msIndexes ≠ [] ∧ ix = s.msIndexes) ∨
  (s.msIndexes = [] ∧ ix.Pairwise (· < ·) ∧ ∀ i, i ∈ ix ↔ 1 ≤ i ∧ i ≤ o.msCount ∧ o.alpha (i - 1).toNat = false)

/-- The data type that is asked for: that of `--dtype`, or the type of the MS image. -/
def TypeFor (o : Obj C) (s : SharpOpts) (dtype : String) : Prop :=
  (s.dtype = some dtype ∧ dtype ≠ "") ∨ ((s.dtype = none ∨ s.dtype = some "") ∧ dtype = o.msDtype)

/-- The weights that are asked for: those of `--weight`, if there are any. -/
def Weights (s : SharpOpts) (w : Option (List ℝ)) : Prop := (s.weights ≠ [] ∧ w = some s.weights) ∨ (s.weights = [] ∧ w = none)

/-- Exceptions that may end a run after the output is opened: those of GDAL (`fault`), of a tile (`RuntimeError`), of weights that cannot be found
(`TypeError`), and of parameters from one pixel. -/
def Late (o : Obj C) (fault : Option (Fault (PanFile C))) (e : PyErr) : Prop :=
  e = .runtimeError ∨ e = .typeError ∨ (∃ f, fault = some f ∧ e = f.err) ∨ ∃ n, o.few n = .error e

/-- Option values that click lets through (`click.Choice`), and images whose type is one of those. -/
structure Choices (s : SharpOpts) : Prop where
  interp : s.interp ∈ ["nearest", "average", "bilinear", "cubic", "lanczos"]
  compress : s.compress = none ∨ ∃ c ∈ ["jpeg", "deflate", "lzw"], s.compress = some c
  driver : s.driver ∈ ["gtiff", "cog"]

/-! ## Lemmas -/

theorem bands_iff {o : Obj C} {s : SharpOpts} {ix : List ℤ} : BandsFor o.msCount o.alpha s.args.msIndexes ix ↔ Bands o s ix := by
  unfold BandsFor Bands
  constructor
  · rintro (⟨l, h1, h2, rfl⟩ | ⟨h1 | h1, h2⟩)
    · cases h1; exact .inl ⟨h2, rfl⟩
    · cases h1
    · exact .inr ⟨Option.some.inj h1, h2⟩
  · rintro (⟨h1, rfl⟩ | ⟨h1, h2⟩)
    · exact .inl ⟨_, rfl, h1, rfl⟩
    · exact .inr ⟨.inr (congrArg some h1), h2⟩

theorem weights_iff {s : SharpOpts} {w : Option (List ℝ)} : WeightsFor s.args.weights w ↔ Weights s w := by
  unfold WeightsFor Weights
  constructor
  · rintro (⟨l, h1, h2, rfl⟩ | ⟨h1 | h1, h2⟩)
    · cases h1; exact .inl ⟨h2, rfl⟩
    · cases h1
    · exact .inr ⟨Option.some.inj h1, h2⟩
  · rintro (⟨h1, rfl⟩ | ⟨h1, h2⟩)
    · exact .inl ⟨_, rfl, h1, rfl⟩
    · exact .inr ⟨.inr (congrArg some h1), h2⟩

theorem cmd_ok {pan ms : Res ℕ} {pi : ℤ} {mi : List ℤ} {r : Res Unit} (h : sharpenCmd pan ms pi mi (.ok ()) = .ok ()) :
    sharpenCmd pan ms pi mi r = match r with
      | .ok () => .ok ()
      | .error e => .error (usage e) := by
  unfold sharpenCmd at h ⊢
  cases pan with
  | error e => cases h
  | ok pc =>
    cases ms with
    | error e => cases h
    | ok mc =>
      simp only at h ⊢
      cases h1 : checkBand pi pc with
      | error e => simp [h1] at h
      | ok _ =>
        cases h2 : checkBands mi mc with
        | error e => simp [h1, h2] at h
        | ok _ => rfl

theorem usage_error {e : PyErr} : (usage e = .clickException ∧ (e = .fileExistsError ∨ DataErr e)) ∨ (usage e = e ∧ e ≠ .fileExistsError ∧ ¬ DataErr e) := by
  unfold usage
  by_cases h : e = .fileExistsError ∨ isOrthority e = true
  · exact .inl ⟨if_pos h, h.imp_right (isOrthority_iff e).1⟩
  · rw [not_or] at h
    exact .inr ⟨if_neg (not_or.2 h), h.1, fun h' => h.2 ((isOrthority_iff e).2 h')⟩

theorem sharpen_ok {tb : Option C → Option C → Bnds ℝ → Res (Bnds ℝ)} {o : Obj C} {s : SharpOpts} {fs fs' : FS (PanFile C)}
    {fault : Option (Fault (PanFile C))} (h : Sharpen tb o s fs fault fs' (.ok ())) :
    ∃ g, getGrids tb o.pan o.ms = .ok g ∧ Process { o with grids := g } s.args fs fault fs' (.ok ()) := by
  have key : ∀ r, Sharpen tb o s fs fault fs' r → r = .ok () →
      ∃ g, getGrids tb o.pan o.ms = .ok g ∧ Process { o with grids := g } s.args fs fault fs' (.ok ()) := by
    intro r h hr
    cases h with
    | weights => cases hr
    | images => cases hr
    | @run w fs'' r hw hc hrun =>
      rw [cmd_ok hc] at hr
      cases r with
      | error e => cases hr
      | ok u =>
        cases hrun with
        | process hg hp => exact ⟨_, hg, hp⟩
  exact key _ h rfl

/-! ## Theorems -/

/-- C93: when `oty sharpen` ends without an exception, there is a pan-sharpened image at `--out-file`, and no other file is changed.  It has the CRS of the pan image, a band
for each band asked for, in that order and with its colour, the data type and driver asked for, and overviews unless `--no-build-ovw` is given.  When both images are georeferenced, its grid is
made of whole pan pixels, and has every point that lies in the bounds of both images.  Pixels without a value in pan or one of the bands are masked, or nodata. -/
theorem C93_output (tb : Option C → Option C → Bnds ℝ → Res (Bnds ℝ)) (o : Obj C) (s : SharpOpts) (fs fs' : FS (PanFile C))
    (fault : Option (Fault (PanFile C))) (hi : InfoOk o) (ho : OptsOk s.creation) (hsz : 0 < o.pan.w ∧ 0 < o.pan.h ∧ 0 < o.ms.w ∧ 0 < o.ms.h)
    (h : Sharpen tb o s fs fault fs' (.ok ())) :
    ∃ (f : PanFile C) (ix : List ℤ) (dtype : String) (dt : Dt) (wm : Bool) (height width : ℕ),
      fs' = fs.put s.outFile (some f) ∧ f.crs = o.pan.crs ∧ Bands o s ix ∧ (∀ i ∈ ix, 1 ≤ i ∧ i ≤ o.msCount) ∧
      f.colors = ix.map (fun i => o.colors (i - 1).toNat) ∧ TypeFor o s dtype ∧ dtype = dt.name ∧ ProfileOk f.profile s.driver dtype ix.length height width ∧
      f.ovw = (if s.buildOvw = true then overviewLevels height width 8 256 else []) ∧ 0 < height ∧ 0 < width ∧
      (¬ o.pan.unreferenced → ¬ o.ms.unreferenced → ∃ (c0 r0 : ℤ) (b : Bnds ℝ), tb o.ms.crs o.pan.crs o.ms.bounds = .ok b ∧
        (∀ u v, f.transform.apply u v = o.pan.t.apply (u + c0) (v + r0)) ∧
        ∀ x y, o.pan.bounds.Has x y → b.Has x y → ∃ u v : ℝ, 0 ≤ u ∧ u ≤ width ∧ 0 ≤ v ∧ v ≤ height ∧ f.transform.apply u v = (x, y)) ∧
      (∀ m, s.writeMask = some m → wm = m) ∧ Dict.get? f.profile "nodata" = some (if wm then .none else .nodata dt) ∧
      ∀ r < height, ∀ c < width, (wm = true → ((f.im r c).valid = true ↔ ∃ x m, o.Has s.args ix r c x m)) ∧
        ((¬ ∃ x m, o.Has s.args ix r c x m) → ∀ b < ix.length, (f.im r c).data b = if wm then zeroOf dt else nodataOf ℝ dt) := by
  obtain ⟨g, hg, hp⟩ := sharpen_ok h
  obtain ⟨ix, w, dtype, dt, wm, f, height, width, h1, h2, rfl, rfl, h5, h6, h7, h8, h9, h10, h11⟩ :=
    C83_file { o with grids := g } s.args fs fs' fault ⟨hi.height, hi.width, hi.block⟩ ho s.outFile (.inr ⟨_, rfl⟩) hp
  obtain ⟨w1, -, w3, w4, -, -, w7⟩ := C53_whole_pixels tb o.pan o.ms g hsz hg
  have e1 : ((g.panWin.width.toNat : ℕ) : ℝ) = ((g.panWin.width : ℤ) : ℝ) := by
    rw [← Int.cast_natCast, Int.toNat_of_nonneg w3.le]
  have e2 : ((g.panWin.height.toNat : ℕ) : ℝ) = ((g.panWin.height : ℤ) : ℝ) := by
    rw [← Int.cast_natCast, Int.toNat_of_nonneg w4.le]
  refine ⟨f, ix, dtype, dt, wm, _, _, h1, h6, bands_iff.1 h2.bands, h2.range.2, h8, h2.type, h2.dt, h5, h9, ?_, ?_, ?_,
    h2.mask, h10, h11⟩
  · show 0 < g.panWin.height.toNat; omega
  · show 0 < g.panWin.width.toNat; omega
  · intro hpr hmr
    obtain ⟨⟨b, hb, hcov⟩, -⟩ := C53_cover tb o.pan o.ms g hmr hpr hg
    refine ⟨g.panWin.colOff, g.panWin.rowOff, b, hb, fun u v => ?_, fun x y hx hy => ?_⟩
    · rw [h7, ← (w7 hmr hpr).1]
      exact w1 u v
    obtain ⟨u, v, k1, k2, k3, k4, k5⟩ := hcov x y hx hy
    exact ⟨u, v, k1, k2.trans e1.symm.le, k3, k4.trans e2.symm.le, by rw [h7]; exact k5⟩

/-- C93: the pixels of the image that `oty sharpen` makes, when the statistics are good (two or more pixels of the MS grid have values, pan is not constant, and no
combination of the MS bands is): those with values in pan and all bands hold the sharpened value of C50 in the output type, with the weights of `--weight` divided by their
sum, or without these weights of least squares; or, when there are no usable weights, all hold what the type makes of NaN. -/
theorem C93_pixels (tb : Option C → Option C → Bnds ℝ → Res (Bnds ℝ)) (o : Obj C) (s : SharpOpts) (fs fs' : FS (PanFile C))
    (fault : Option (Fault (PanFile C))) (hi : InfoOk o) (ho : OptsOk s.creation) (hls : IsLstsq o.ls)
    (hg : ∀ g ix, getGrids tb o.pan o.ms = .ok g → Bands o s ix → ({ o with grids := g } : Obj C).Good s.args ix)
    (h : Sharpen tb o s fs fault fs' (.ok ())) :
    ∃ (f : PanFile C) (ix : List ℤ) (w : Option (List ℝ)) (dtype : String) (dt : Dt) (g : Grids ℝ), fs' = fs.put s.outFile (some f) ∧
      getGrids tb o.pan o.ms = .ok g ∧ Bands o s ix ∧ Weights s w ∧ TypeFor o s dtype ∧ dtype = dt.name ∧
      let o' : Obj C := { o with grids := g }
      ((∃ u γ β, WeightsOf (o'.P s.args ix) (o'.v s.args ix) ix.length w u ∧ Matches (o'.P s.args ix) (o'.v s.args ix) ix.length u γ β ∧
        ∀ r < g.panWin.height.toNat, ∀ c < g.panWin.width.toNat, ∀ x m, o'.Has s.args ix r c x m → ∀ b < ix.length,
          (f.im r c).data b = convertDtype o.env .float64 dt (.fin (sharpened (o'.P s.args ix) (o'.v s.args ix) ix.length u γ β x m b))) ∨
      ∀ r < g.panWin.height.toNat, ∀ c < g.panWin.width.toNat, ∀ x m, o'.Has s.args ix r c x m → ∀ b < ix.length,
        (f.im r c).data b = convertDtype o.env .float64 dt .nan) := by
  obtain ⟨g, hgr, hp⟩ := sharpen_ok h
  obtain ⟨ix, w, dtype, dt, wm, f, h1, h2, h3⟩ :=
    C83_pixels { o with grids := g } s.args fs fs' fault ⟨hi.height, hi.width, hi.block⟩ ho hls s.outFile (.inr ⟨_, rfl⟩)
      (fun ix hix => hg g ix hgr (bands_iff.1 hix)) hp
  exact ⟨f, ix, w, dtype, dt, g, h1, hgr, bands_iff.1 h2.bands, weights_iff.1 h2.weights, h2.type, h2.dt, h3⟩

/-- C93: `oty sharpen` changes no file but `--out-file`, however it ends, and not that when it exists and `--overwrite` is not given, when a weight is negative, there are
not as many weights as bands, or an image or band is missing. -/
theorem C93_files (tb : Option C → Option C → Bnds ℝ → Res (Bnds ℝ)) (o : Obj C) (s : SharpOpts) (fs fs' : FS (PanFile C))
    (fault : Option (Fault (PanFile C))) (r : Res Unit) (h : Sharpen tb o s fs fault fs' r) :
    (∀ q ≠ s.outFile, fs' q = fs q) ∧
    ((s.overwrite = false ∧ fs s.outFile ≠ none) ∨ (∃ x ∈ s.weights, x < 0) ∨
      (s.weights ≠ [] ∧ ∃ ix, Bands o s ix ∧ s.weights.length ≠ ix.length) ∨ o.panErr ≠ none ∨ o.msErr ≠ none ∨
      ¬ (1 ≤ s.panIndex ∧ s.panIndex ≤ o.panCount) ∨ (∃ i ∈ s.msIndexes, ¬ (1 ≤ i ∧ i ≤ o.msCount)) → fs' = fs ∧ ∃ e, r = .error e) := by
  cases h with
  | weights => exact ⟨fun _ _ => rfl, fun _ => ⟨rfl, _, rfl⟩⟩
  | images => exact ⟨fun _ _ => rfl, fun _ => ⟨rfl, _, rfl⟩⟩
  | @run w fs'' r' hw hc hrun =>
    rw [cmd_ok hc]
    cases hrun with
    | init => exact ⟨fun _ _ => rfl, fun _ => ⟨rfl, _, rfl⟩⟩
    | @process g _ _ hg hp =>
      obtain ⟨k1, k2⟩ := C83_files { o with grids := g } s.args fs _ fault s.outFile (.inr ⟨_, rfl⟩) r' hp
      refine ⟨k1, fun hbad => ?_⟩
      have hne : ∀ x ∈ s.weights, s.weights ≠ [] := fun x hx e => by rw [e] at hx; cases hx
      have hb := bands_iff.1 (bandsFor_resolve o.msCount o.alpha s.args.msIndexes)
      obtain ⟨e1, e, rfl⟩ := k2 (by
        rcases hbad with hb' | ⟨x, hx, h0⟩ | ⟨h0, ix, hix, hl⟩ | h0 | h0 | h0 | ⟨i, hi, h0⟩
        · exact .inr (.inr (.inr (.inr (.inr (.inr (.inr hb'))))))
        · exact .inr (.inr (.inr (.inr (.inl ⟨_, bands_iff.2 hb, .inr ⟨_, rfl, hne x hx, .inr ⟨x, hx, h0⟩⟩⟩))))
        · exact .inr (.inr (.inr (.inr (.inl ⟨ix, bands_iff.2 hix, .inr ⟨_, rfl, h0, .inl hl⟩⟩))))
        · exact .inr (.inl h0)
        · exact .inr (.inr (.inl h0))
        · exact .inr (.inr (.inr (.inl h0)))
        · refine .inr (.inr (.inr (.inr (.inl ⟨_, bands_iff.2 hb, .inl ⟨i, ?_, h0⟩⟩))))
          rcases hb with ⟨-, e⟩ | ⟨e, -⟩
          · rw [e]; exact hi
          · rw [e] at hi; cases hi)
      exact ⟨e1, _, rfl⟩

theorem late_paramsOf {o : Obj C} {n : ℕ} {st : (ℕ → ℝ) × (ℕ → ℕ → Fl ℝ)} {w : Option (List ℝ)} {e : PyErr} (h : paramsOf o n st w = .error e) :
    e = .typeError ∨ ∃ n, o.few n = .error e := by
  unfold paramsOf at h
  split at h
  · exact .inr ⟨_, h⟩
  · left
    unfold getParams getWeights rawWeights at h
    cases w with
    | some l => cases h
    | none =>
      simp only at h
      split_ifs at h
      cases h
      rfl

theorem early {o : Obj C} {s : SharpOpts} {e : PyErr} (hch : Choices s) (hp : o.panErr = none) (hm : o.msErr = none) (h : prepare o s.args = .error e) :
    e = .orthorityError := by
  unfold prepare at h
  rw [if_neg (show ¬ s.args.interp ∉ Verif.OrthoProcess.interps from not_not.2 hch.interp), hp, hm] at h
  simp only at h
  have hb := bandsFor_resolve o.msCount o.alpha s.args.msIndexes
  have hw : ∃ w, Weights s w := by
    by_cases e : s.weights = []
    · exact ⟨none, .inr ⟨e, rfl⟩⟩
    · exact ⟨_, .inl ⟨e, rfl⟩⟩
  obtain ⟨w, hw⟩ := hw
  rcases (C51_accepts o.panCount o.msCount o.alpha s.args.panIndex s.args.msIndexes s.args.weights _ w hb (weights_iff.2 hw)).2 with he | he
  · rw [he] at h
    cases h
    rfl
  · rw [he] at h
    simp only at h
    split at h
    · rename_i e' hc
      cases h
      unfold createProfile at hc
      cases hdt : Dt.parse (dtypeOf o s.args) with
      | error e'' =>
        simp only [hdt, Except.error.injEq] at hc
        subst hc
        unfold Dt.parse at hdt
        split_ifs at hdt
        cases hdt
        rfl
      | ok dt =>
        have hdrv : ∃ d, Driver.parse s.args.driver = .ok d := by
          have := hch.driver
          simp only [List.mem_cons, List.not_mem_nil, or_false] at this
          rcases this with e | e <;> (show ∃ d, Driver.parse s.driver = .ok d; rw [e]; exact ⟨_, rfl⟩)
        obtain ⟨d, hd⟩ := hdrv
        simp only [hdt, hd] at hc
        split_ifs at hc with hl
        cases hr : resolveCompress dt s.args.compress (initProfile d (resolveIndexes o.msCount o.alpha s.args.msIndexes).length (panSize o).1 (panSize o).2 dt) with
        | ok q => rw [hr] at hc; cases hc
        | error e'' =>
          rw [hr] at hc
          simp only [Except.error.injEq] at hc
          subst hc
          unfold resolveCompress at hr
          change (match s.compress with | none => _ | some c => _) = _ at hr
          rcases hch.compress with e | ⟨c, hcm, e⟩
          · rw [e] at hr; cases hr
          · rw [e] at hr
            simp only [List.mem_cons, List.not_mem_nil, or_false] at hcm
            rcases hcm with rfl | rfl | rfl
            · simp only [Compress.parse, if_pos] at hr
              split_ifs at hr
              cases hr
              rfl
            · simp [Compress.parse] at hr
            · simp [Compress.parse] at hr
    · cases h

/-- C93: how `oty sharpen` can fail.  Either it ends with a message about its options or images (click's usage errors) or the exception of opening an image or of comparing
their bounds, and changes no file; or it ends with an exception that is not such a message (`RuntimeError` for a tile, `TypeError` for weights, or an exception
of GDAL). -/
theorem C93_errors (tb : Option C → Option C → Bnds ℝ → Res (Bnds ℝ)) (o : Obj C) (s : SharpOpts) (fs fs' : FS (PanFile C))
    (fault : Option (Fault (PanFile C))) (hi : InfoOk o) (hch : Choices s) (hf : ∀ f, fault = some f → ¬ DataErr f.err ∧ f.err ≠ .fileExistsError)
    (hfew : ∀ n e, o.few n = .error e → ¬ DataErr e ∧ e ≠ .fileExistsError) (e : PyErr) (h : Sharpen tb o s fs fault fs' (.error e)) :
    (fs' = fs ∧ (UsageErr e ∨ o.panErr = some e ∨ o.msErr = some e ∨ getGrids tb o.pan o.ms = .error e)) ∨ Late o fault e := by
  have key : ∀ r, Sharpen tb o s fs fault fs' r → r = .error e →
      (fs' = fs ∧ (UsageErr e ∨ o.panErr = some e ∨ o.msErr = some e ∨ getGrids tb o.pan o.ms = .error e)) ∨ Late o fault e := by
    intro r h hr
    cases h with
    | weights hw =>
      cases hr
      have : e = .badParameter := by
        unfold weightsCb at hw
        simp only at hw
        split_ifs at hw
        cases hw
        rfl
      exact .inl ⟨rfl, .inl (.inr (.inl this))⟩
    | images hw hc =>
      cases hr
      refine .inl ⟨rfl, ?_⟩
      unfold sharpenCmd opened at hc
      cases hp : o.panErr with
      | some x =>
        rw [hp] at hc
        simp only [Except.error.injEq] at hc
        split_ifs at hc
        · exact .inl (.inr (.inl hc.symm))
        · exact .inr (.inl (by rw [hc]))
      | none =>
        cases hm : o.msErr with
        | some x =>
          rw [hp, hm] at hc
          simp only [Except.error.injEq] at hc
          split_ifs at hc
          · exact .inl (.inr (.inl hc.symm))
          · exact .inr (.inr (.inl (by rw [hc])))
        | none =>
          rw [hp, hm] at hc
          simp only at hc
          unfold checkBand checkBands at hc
          left; right; left
          split_ifs at hc <;> simp_all
    | @run w fs'' r hw hc hrun =>
      rw [cmd_ok hc] at hr
      have hopen : o.panErr = none ∧ o.msErr = none := by
        unfold sharpenCmd opened at hc
        cases hp : o.panErr with
        | some x => rw [hp] at hc; cases hc
        | none =>
          cases hm : o.msErr with
          | some x => rw [hp, hm] at hc; cases hc
          | none => exact ⟨rfl, rfl⟩
      cases r with
      | ok u => cases hr
      | error e' =>
        simp only [Except.error.injEq] at hr
        have hplain : ¬ DataErr e' ∧ e' ≠ .fileExistsError → e = e' := by
          intro hd
          rcases usage_error (e := e') with ⟨-, h2⟩ | ⟨h1, -⟩
          · exact absurd h2 (not_or.2 ⟨hd.2, hd.1⟩)
          · rw [← hr, h1]
        have hdata : DataErr e' ∨ e' = .fileExistsError → UsageErr e := by
          intro hd
          rcases usage_error (e := e') with ⟨h1, -⟩ | ⟨-, h2, h3⟩
          · exact .inl (by rw [← hr, h1])
          · rcases hd with hd | hd
            · exact absurd hd h3
            · exact absurd hd h2
        cases hrun with
        | init hg =>
          rcases usage_error (e := e') with ⟨h1, -⟩ | ⟨h1, -⟩
          · exact .inl ⟨rfl, .inl (.inl (by rw [← hr, h1]))⟩
          · exact .inl ⟨rfl, .inr (.inr (.inr (by rw [← hr, h1]; exact hg)))⟩
        | @process g _ _ hg hp =>
          cases hp with
          | before hb =>
            have := early (o := { o with grids := g }) hch hopen.1 hopen.2 hb
            exact .inl ⟨rfl, .inl (hdata (.inl (.inl this)))⟩
          | refused _ hq =>
            refine .inl ⟨rfl, .inl (hdata (.inr ?_))⟩
            change (if ("wb" : String) ≠ "wb" then (.error .osError : Res String)
              else if (!s.overwrite && (fs s.outFile).isSome) = true then .error .fileExistsError else .ok s.outFile) = .error e' at hq
            rw [if_neg (fun h => h rfl)] at hq
            split_ifs at hq
            exact (Except.error.inj hq).symm
          | fault _ _ hq =>
            right; right; right; left
            exact ⟨_, hq, hplain (hf _ hq)⟩
          | stats _ _ _ hq =>
            obtain ⟨rfl, -⟩ := stats_error hq
            exact .inr (.inl (hplain (by simp [DataErr])))
          | params _ _ _ _ hq =>
            rcases late_paramsOf hq with rfl | ⟨n, hn⟩
            · exact .inr (.inr (.inl (hplain (by simp [DataErr]))))
            · refine .inr (.inr (.inr (.inr ⟨n, ?_⟩)))
              rw [hplain (hfew n _ hn)]
              exact hn
          | @stopped x _ _ _ _ _ _ _ _ _ _ hq _ =>
            rcases C52_errors _ _ _ hq with ⟨rfl, -⟩ | hb
            · exact .inr (.inl (hplain (by simp [DataErr])))
            · obtain ⟨ws, hws⟩ := Verif.Tiles.C01_tiles_defined (o.info x.p) none (hi.block x.p)
              have hb' : Verif.Tiles.blockWindows (o.info x.p) = .error _ := hb
              rw [hws] at hb'
              cases hb'
  exact key _ h rfl

theorem cmd_accepts {o : Obj C} {s : SharpOpts} (himg : o.panErr = none ∧ o.msErr = none) (hp : 1 ≤ s.panIndex ∧ s.panIndex ≤ o.panCount)
    (hm : ∀ i ∈ s.msIndexes, 1 ≤ i ∧ i ≤ (o.msCount : ℤ)) :
    sharpenCmd (opened o.panErr o.panCount) (opened o.msErr o.msCount) s.panIndex s.msIndexes (.ok ()) = .ok () := by
  have h1 : checkBand s.panIndex o.panCount = .ok () := if_neg (by omega)
  have h2 : checkBands s.msIndexes o.msCount = .ok () := by
    unfold checkBands
    rw [if_neg]
    rw [List.filter_eq_nil_iff.2]
    · exact Nat.not_lt_zero 0
    · intro i hi
      have := hm i hi
      simp only [decide_eq_true_eq]
      omega
  unfold sharpenCmd opened
  rw [himg.1, himg.2]
  simp only [h1, h2]

theorem weightsCb_ok {s : SharpOpts} (h : ∀ x ∈ s.weights, 0 ≤ x) : ∃ w, weightsCb (some (s.weights.map some)) = .ok w := by
  refine ⟨some (s.weights.map some), if_neg ?_⟩
  rw [List.any_eq_true]
  rintro ⟨y, hy, hd⟩
  obtain ⟨x, hx, rfl⟩ := List.mem_map.1 hy
  exact absurd (h x hx) (not_le.2 (of_decide_eq_true hd))

/-- What `oty sharpen` needs: images that can be opened and compared, bands that are in them, as many weights as bands, none negative, known choices, JPEG only for 8 or 16
bit unsigned types, and an output that does not exist or may be overwritten. -/
structure Accepts (tb : Option C → Option C → Bnds ℝ → Res (Bnds ℝ)) (o : Obj C) (s : SharpOpts) (fs : FS (PanFile C)) (g : Grids ℝ) (ix : List ℤ)
    (dtype : String) : Prop where
  images : o.panErr = none ∧ o.msErr = none
  grids : getGrids tb o.pan o.ms = .ok g
  pan : 1 ≤ s.panIndex ∧ s.panIndex ≤ o.panCount
  bands : Bands o s ix
  range : ∀ i ∈ ix, 1 ≤ i ∧ i ≤ o.msCount
  weights : (∀ x ∈ s.weights, 0 ≤ x) ∧ (s.weights ≠ [] → s.weights.length = ix.length)
  interp : s.interp ∈ ["nearest", "average", "bilinear", "cubic", "lanczos"]
  type : TypeFor o s dtype
  profile : ProfileArgsOk s.driver s.compress s.creation dtype
  out : s.overwrite = true ∨ fs s.outFile = none

theorem accepts_ready {tb : Option C → Option C → Bnds ℝ → Res (Bnds ℝ)} {o : Obj C} {s : SharpOpts} {fs : FS (PanFile C)} {g : Grids ℝ} {ix : List ℤ}
    {dtype : String} (h : Accepts tb o s fs g ix dtype) {w : Option (List ℝ)} (hw : Weights s w) : Ready { o with grids := g } s.args ix w dtype where
  images := h.images
  interp := h.interp
  bands := bands_iff.2 h.bands
  range := ⟨h.pan, h.range⟩
  weights := weights_iff.2 hw
  nonneg := by
    intro l hl
    rcases hw with ⟨h1, rfl⟩ | ⟨-, rfl⟩
    · cases hl; exact ⟨h.weights.2 h1, h.weights.1⟩
    · cases hl
  type := h.type
  profile := h.profile

theorem accepts_cmd {tb : Option C → Option C → Bnds ℝ → Res (Bnds ℝ)} {o : Obj C} {s : SharpOpts} {fs : FS (PanFile C)} {g : Grids ℝ} {ix : List ℤ}
    {dtype : String} (h : Accepts tb o s fs g ix dtype) :
    sharpenCmd (opened o.panErr o.panCount) (opened o.msErr o.msCount) s.panIndex s.msIndexes (.ok ()) = .ok () := by
  refine cmd_accepts h.images h.pan fun i hi => ?_
  rcases h.bands with ⟨-, rfl⟩ | ⟨e, -⟩
  · exact h.range i hi
  · rw [e] at hi; cases hi

/-- With all that it needs, `oty sharpen` ends as `process` does. -/
theorem sharpen_runs {tb : Option C → Option C → Bnds ℝ → Res (Bnds ℝ)} {o : Obj C} {s : SharpOpts} {fs fs' : FS (PanFile C)} {g : Grids ℝ} {ix : List ℤ}
    {dtype : String} (h : Accepts tb o s fs g ix dtype) {fault : Option (Fault (PanFile C))} {r : Res Unit} :
    Sharpen tb o s fs fault fs' r ↔ ∃ r', Process { o with grids := g } s.args fs fault fs' r' ∧ r = match r' with
      | .ok () => .ok ()
      | .error e => .error (usage e) := by
  have hc := accepts_cmd h
  obtain ⟨w, hw⟩ := weightsCb_ok h.weights.1
  constructor
  · intro hs
    cases hs with
    | weights h' => rw [hw] at h'; cases h'
    | images _ h' => rw [hc] at h'; cases h'
    | run _ h' hr =>
      cases hr with
      | init h'' => rw [h.grids] at h''; cases h''
      | process h'' hp =>
        rw [h.grids] at h''
        cases h''
        exact ⟨_, hp, cmd_ok hc⟩
  · rintro ⟨r', hp, rfl⟩
    rw [← cmd_ok hc]
    exact .run hw hc (.process h.grids hp)

/-- C93: with all that it needs, two or more pixels of the MS grid that have values, and weights or more than one band, `oty sharpen` can end without an exception,
and when GDAL raises none it cannot end in another way. -/
theorem C93_completes (tb : Option C → Option C → Bnds ℝ → Res (Bnds ℝ)) (o : Obj C) (s : SharpOpts) (fs : FS (PanFile C)) (hi : InfoOk o) (g : Grids ℝ)
    (ix : List ℤ) (dtype : String) (h : Accepts tb o s fs g ix dtype) (hs : ∀ w, o.statErr w = none) (ht : ∀ w, o.tileErr w = none)
    (h2 : 2 ≤ (({ o with grids := g } : Obj C).P s.args ix).card) (hw : ix.length ≠ 1 ∨ s.weights ≠ []) :
    (∃ fs', Sharpen tb o s fs none fs' (.ok ())) ∧ ∀ fs' r, Sharpen tb o s fs none fs' r → r = .ok () := by
  have hex : ∃ w, Weights s w ∧ (ix.length ≠ 1 ∨ w ≠ none) := by
    by_cases e : s.weights = []
    · exact ⟨none, .inr ⟨e, rfl⟩, .inl (hw.resolve_right fun h => h e)⟩
    · exact ⟨_, .inl ⟨e, rfl⟩, .inr (by simp)⟩
  obtain ⟨w, hww, hw'⟩ := hex
  obtain ⟨⟨fs', k1⟩, k2⟩ := C83_completes { o with grids := g } s.args fs ⟨hi.height, hi.width, hi.block⟩ s.outFile ix w dtype (accepts_ready h hww)
    ⟨.inr rfl, h.out⟩ hs ht h2 hw'
  refine ⟨⟨fs', (sharpen_runs h).2 ⟨_, k1, rfl⟩⟩, fun fs'' r hr => ?_⟩
  obtain ⟨r', hp, rfl⟩ := (sharpen_runs h).1 hr
  rw [k2 _ _ hp]

/-- C93 does not hold of one MS band that decreases as pan increases: without `--weight`, `oty sharpen` ends with a traceback (`TypeError`), and a file that was at
`--out-file` is replaced by an image without data. -/
theorem C93_single_fails (tb : Option C → Option C → Bnds ℝ → Res (Bnds ℝ)) (o : Obj C) (s : SharpOpts) (fs : FS (PanFile C)) (hls : IsLstsq o.ls)
    (g : Grids ℝ) (ix : List ℤ) (dtype : String) (h : Accepts tb o s fs g ix dtype) (hs : ∀ w, o.statErr w = none) (h1 : ix.length = 1)
    (hw : s.weights = []) (h2 : 2 ≤ (({ o with grids := g } : Obj C).P s.args ix).card)
    (hvar : 0 < batchCov (({ o with grids := g } : Obj C).P s.args ix) (o.v s.args ix) 1 1)
    (hneg : batchCov (({ o with grids := g } : Obj C).P s.args ix) (o.v s.args ix) 0 1 < 0) :
    (∃ fs', Sharpen tb o s fs none fs' (.error .typeError)) ∧
    ∀ fs' r, Sharpen tb o s fs none fs' r → r = .error .typeError ∧ ∃ f, fs' = fs.put s.outFile (some f) ∧ f.im = o.blank := by
  obtain ⟨⟨fs', k1⟩, k2⟩ := C83_replaced_fails { o with grids := g } s.args fs hls s.outFile ix dtype (accepts_ready h (.inr ⟨hw, rfl⟩)) ⟨.inr rfl, h.out⟩ hs h1 h2
    hvar hneg
  refine ⟨⟨fs', (sharpen_runs h).2 ⟨_, k1, rfl⟩⟩, fun fs'' r hr => ?_⟩
  obtain ⟨r', hp, rfl⟩ := (sharpen_runs h).1 hr
  obtain ⟨rfl, f, hf⟩ := k2 _ _ hp
  exact ⟨rfl, f, hf⟩

/-! ## Examples: the images of C83 -/

def demoOpts (overwrite : Bool) (panIndex : ℤ) (ix : List ℤ) (w : List ℝ) : SharpOpts :=
  ⟨"sharp.tif", panIndex, ix, w, "cubic", none, none, some "deflate", true, [], "gtiff", overwrite⟩

/-- Pan pixels of half the size of MS pixels, on the same area. -/
noncomputable def demoRaster : Raster ℝ ℕ := ⟨some 32735, ⟨1, 0, 10, 0, -1, 20⟩, 4, 4⟩

/-- The MS image of C83. -/
noncomputable def demoMsRaster : Raster ℝ ℕ := ⟨some 32735, ⟨2, 0, 10, 0, -2, 20⟩, 2, 2⟩

/-- Bounds in one CRS. -/
noncomputable def demoTb : Option ℕ → Option ℕ → Bnds ℝ → Res (Bnds ℝ) := fun _ _ b =>
  if b.left ≤ b.right ∧ b.bottom ≤ b.top then .ok b else .error .valueError

theorem demo_refs : ¬ demoRaster.unreferenced ∧ ¬ demoMsRaster.unreferenced ∧ NorthUp demoRaster.t ∧ NorthUp demoMsRaster.t := by
  refine ⟨fun h => by simp [Raster.unreferenced, demoRaster] at h, fun h => by simp [Raster.unreferenced, demoMsRaster] at h, ?_, ?_⟩ <;>
    constructor <;> norm_num [demoRaster, demoMsRaster]

theorem demo_bounds : demoRaster.bounds = ⟨10, 16, 14, 20⟩ ∧ demoMsRaster.bounds = ⟨10, 16, 14, 20⟩ := by
  constructor
  · rw [Raster.bounds, dsBounds_northUp demo_refs.2.2.1]
    norm_num [demoRaster]
  · rw [Raster.bounds, dsBounds_northUp demo_refs.2.2.2]
    norm_num [demoMsRaster]

theorem demo_grids : ∃ g, getGrids demoTb demoRaster demoMsRaster = .ok g ∧ g.msWin = ⟨0, 0, 2, 2⟩ := by
  obtain ⟨h1, h2, h3, h4⟩ := demo_refs
  obtain ⟨b1, b2⟩ := demo_bounds
  obtain ⟨g, hg⟩ := (C63_same_crs_partial demoTb demoRaster demoMsRaster rfl h3 h4 h2 h1 (fun _ _ h h' => if_pos ⟨h, h'⟩)).1.2
    (by rw [b1, b2]; norm_num [Overlap, demoRaster, demoMsRaster])
  refine ⟨g, hg, ?_⟩
  have hsz : 0 < demoRaster.w ∧ 0 < demoRaster.h ∧ 0 < demoMsRaster.w ∧ 0 < demoMsRaster.h := by simp [demoRaster, demoMsRaster]
  obtain ⟨-, w1, -, -, w2, w3, w4⟩ := C53_whole_pixels _ _ _ _ hsz hg
  obtain ⟨-, ⟨b, hb, hc⟩⟩ := C53_cover _ _ _ _ h2 h1 hg
  have hin := (C53_least demoTb demoRaster demoMsRaster g h2 h1 h3 h4 (by
    intro a b B B' _ _ h
    unfold demoTb at h
    split_ifs at h with h'
    cases h
    exact h') hg).2.1
  obtain rfl : (⟨10, 16, 14, 20⟩ : Bnds ℝ) = b := by
    rw [b1, demoTb, if_pos (by norm_num)] at hb
    exact Except.ok.inj hb
  rw [b2] at hc
  have at' : ∀ u v, g.msT.apply u v = (2 * (u + g.msWin.colOff) + 10, -2 * (v + g.msWin.rowOff) + 20) := by
    intro u v
    rw [w1, (w4 h2 h1).2, northUp_apply h4]
    rfl
  obtain ⟨u, v, k1, k2, k3, k4, k5⟩ := hc 10 20 (by norm_num [Bnds.Has]) (by norm_num [Bnds.Has])
  obtain ⟨u', v', k1', k2', k3', k4', k5'⟩ := hc 14 16 (by norm_num [Bnds.Has]) (by norm_num [Bnds.Has])
  rw [at', Prod.mk.injEq] at k5 k5'
  have e1 : g.msWin.colOff ≤ 0 := by
    have : (g.msWin.colOff : ℝ) ≤ 0 := by linarith [k5.1]
    exact_mod_cast this
  have e2 : g.msWin.rowOff ≤ 0 := by
    have : (g.msWin.rowOff : ℝ) ≤ 0 := by linarith [k5.2]
    exact_mod_cast this
  have e3 : 2 ≤ g.msWin.colOff + g.msWin.width := by
    have : (2 : ℝ) ≤ g.msWin.colOff + g.msWin.width := by linarith [k5'.1]
    exact_mod_cast this
  have e4 : 2 ≤ g.msWin.rowOff + g.msWin.height := by
    have : (2 : ℝ) ≤ g.msWin.rowOff + g.msWin.height := by linarith [k5'.2]
    exact_mod_cast this
  generalize g.msWin = win at hin e1 e2 e3 e4
  obtain ⟨c, r, w, h⟩ := win
  obtain ⟨i1, i2, i3, i4⟩ := hin
  simp only [demoMsRaster] at i1 i2 i3 i4 e1 e2 e3 e4
  simp only [IWin.mk.injEq]
  push_cast at *
  omega

theorem demo_accepts (ls : List (List ℝ) → List ℝ → List ℝ) (g g' : Grids ℝ) (hg : getGrids demoTb demoRaster demoMsRaster = .ok g) (j : ℤ) (hj : 1 ≤ j ∧ j ≤ 2)
    (ix : List ℤ) (hne : ix ≠ []) (hix : ∀ i ∈ ix, 1 ≤ i ∧ i ≤ 2) (w : List ℝ) (hw : (∀ x ∈ w, 0 ≤ x) ∧ (w ≠ [] → w.length = ix.length))
    (overwrite : Bool) (fs : FS (PanFile ℕ)) (ho : overwrite = true ∨ fs "sharp.tif" = none) :
    Accepts demoTb (demoObj ls demoRaster g') (demoOpts overwrite j ix w) fs g ix "float64" where
  images := ⟨rfl, rfl⟩
  grids := hg
  pan := hj
  bands := .inl ⟨hne, rfl⟩
  range := hix
  weights := hw
  interp := by simp [demoOpts]
  type := .inr ⟨.inl rfl, rfl⟩
  profile := ⟨by simp [demoOpts], by decide, by simp [demoOpts]⟩
  out := ho

/-- `oty sharpen -mi 1 -mi 2`, with and without weights: the command completes, and the conditions of `C93_output`, `C93_pixels` and `C93_completes` are met. -/
example (w : List ℝ) (hw : w = [] ∨ w = [1, 3]) : ∃ (o : Obj ℕ) (fs' : FS (PanFile ℕ)) (f : PanFile ℕ),
    Sharpen demoTb o (demoOpts false 1 [1, 2] w) (fun _ => none) none fs' (.ok ()) ∧ fs' "sharp.tif" = some f ∧ f.crs = some 32735 ∧
    f.colors = ["red", "nir"] ∧ Dict.get? f.profile "dtype" = some (.str "float64") ∧ InfoOk o ∧ IsLstsq o.ls ∧
    ∀ g ix, getGrids demoTb o.pan o.ms = .ok g → Bands o (demoOpts false 1 [1, 2] w) ix →
      ({ o with grids := g } : Obj ℕ).Good (demoOpts false 1 [1, 2] w).args ix := by
  obtain ⟨ls, hls⟩ := demo_lstsq
  obtain ⟨g, hg, hwin⟩ := demo_grids
  let s := demoOpts false 1 [1, 2] w
  let o := demoObj ls demoRaster g
  have hww : (∀ x ∈ w, 0 ≤ x) ∧ (w ≠ [] → w.length = ([1, 2] : List ℤ).length) := by
    rcases hw with rfl | rfl
    · simp
    · refine ⟨?_, fun _ => rfl⟩
      intro x hx
      simp only [List.mem_cons, List.not_mem_nil, or_false] at hx
      rcases hx with rfl | rfl <;> norm_num
  have hacc : Accepts demoTb o s (fun _ => none) g [1, 2] "float64" :=
    demo_accepts ls g g hg 1 (by decide) [1, 2] (by decide) (by decide) w hww false (fun _ => none) (.inr rfl)
  have hgood : ∀ g' ix, getGrids demoTb o.pan o.ms = .ok g' → Bands o s ix → ({ o with grids := g' } : Obj ℕ).Good s.args ix := by
    intro g' ix h1 h2
    have e : g' = g := Except.ok.inj (h1.symm.trans hg)
    subst e
    rcases h2 with ⟨-, rfl⟩ | ⟨e, -⟩
    · have h3 := demo_good ls demoRaster g' hwin (some [1, 2])
      exact ⟨h3.two, h3.pan, h3.ms⟩
    · cases e
  obtain ⟨⟨fs', hrun⟩, -⟩ := C93_completes demoTb o s (fun _ => none) (demo_info ls demoRaster g) g [1, 2] "float64" hacc (fun _ => rfl) (fun _ => rfl)
    (hgood g [1, 2] hg hacc.bands).two (.inl (by decide))
  have hopts : OptsOk s.creation := ⟨by simp [Dict.Ok, s, demoOpts], by intro k _; rfl⟩
  obtain ⟨f, ix, dtype, dt, wm, hh, ww, q1, q2, q3, -, q5, q6, -, q7, -⟩ := C93_output demoTb o s (fun _ => none) fs' none (demo_info ls demoRaster g) hopts
    (by simp [o, demoObj, demoRaster]) hrun
  obtain rfl : ix = [1, 2] := by
    rcases q3 with ⟨-, rfl⟩ | ⟨e, -⟩
    · rfl
    · cases e
  obtain rfl : dtype = "float64" := by
    rcases q6 with ⟨e, -⟩ | ⟨-, e⟩
    · cases e
    · exact e
  exact ⟨o, fs', f, hrun, by rw [q1]; exact if_pos rfl, q2, by rw [q5]; rfl, q7.dtype, demo_info ls demoRaster g, hls, hgood⟩

/-- `oty sharpen -pi 2 -mi 1 --overwrite`: the conditions of `C93_single_fails` are met.  Pan band 2 decreases as MS band 1 increases. -/
example (old : PanFile ℕ) : ∃ (o : Obj ℕ) (fs' : FS (PanFile ℕ)) (f : PanFile ℕ),
    Sharpen demoTb o (demoOpts true 2 [1] []) (fun _ => some old) none fs' (.error .typeError) ∧ fs' "sharp.tif" = some f ∧ f.im = o.blank := by
  obtain ⟨ls, hls⟩ := demo_lstsq
  obtain ⟨g, hg, hwin⟩ := demo_grids
  let s := demoOpts true 2 [1] []
  let o := demoObj ls demoRaster g
  have hacc : Accepts demoTb o s (fun _ => some old) g [1] "float64" :=
    demo_accepts ls g g hg 2 (by decide) [1] (by decide) (by decide) [] ⟨by simp, by simp⟩ true _ (.inl rfl)
  have hP : ({ o with grids := g } : Obj ℕ).P s.args [1] = {(0, 0), (0, 1), (1, 0)} := demo_P ls demoRaster g hwin 2 none [1]
  obtain ⟨⟨fs', h1⟩, h2⟩ := C93_single_fails demoTb o s (fun _ => some old) hls g [1] "float64" hacc (fun _ => rfl) rfl rfl (by rw [hP]; decide)
    (by rw [hP]; norm_num [batchCov, batchDev, batchMean, Obj.v, o, demoObj, demoMs])
    (by rw [hP]; norm_num [batchCov, batchDev, batchMean, Obj.v, o, s, demoOpts, SharpOpts.args, demoObj, demoMs, demoPan])
  obtain ⟨-, f, hf, him⟩ := h2 _ _ h1
  exact ⟨o, fs', f, h1, by rw [hf]; exact if_pos rfl, him⟩

/-- An existing output and no `--overwrite`: a usage error, and nothing is changed. -/
example (ls : List (List ℝ) → List ℝ → List ℝ) (old : PanFile ℕ) (g : Grids ℝ) (fs' : FS (PanFile ℕ)) (r : Res Unit)
    (h : Sharpen demoTb (demoObj ls demoRaster g) (demoOpts false 1 [1, 2] []) (fun _ => some old) none fs' r) :
    fs' = (fun _ => some old) ∧ ∃ e, r = .error e :=
  (C93_files demoTb _ (demoOpts false 1 [1, 2] []) (fun _ => some old) fs' none r h).2 (.inl ⟨rfl, by simp⟩)

end Verif.CommandSharp
