import Verif.Base.Err
import Mathlib.Data.List.Basic

/-!
# Path and CRS options of the commands (C77)
-/

set_option autoImplicit false

namespace Verif.Cli

open Res (ok_bind error_bind)

/-! ## Model -/

variable {C : Type}

/-- What `_read_crs` and the callbacks use of rasterio, pathlib and fsspec: reading a CRS from a string
(`CRS.from_string`), whether a path ends in `.tif` or `.tiff`, the metadata CRS of an image, `Path.exists` (which raises
`OSError` for names that are too long), whether a string starts with a known URI scheme, the text of a file, and
whether a CRS is geographic. -/
structure CrsEnv (C : Type) where
  parse : String → Res C
  isTif : String → Bool
  image : String → Res (Option C)
  pathExists : String → Res Bool
  isUri : String → Bool
  text : String → Res String
  geographic : C → Bool

/-- orthority/cli.py:141-155 `_read_crs`. -/
def readCrs (env : CrsEnv C) (s : String) : Res (Option C) :=
  if env.isTif s then env.image s
  else do
    let e ← env.pathExists s
    let s ← if e || env.isUri s then env.text s else pure s
    let c ← env.parse s
    pure (some c)

/-- `except Exception as ex: raise click.BadParameter(...)`, orthority/cli.py:163-164, 179-180, 193-194, 203-204. -/
def asBad {α : Type} : Res α → Res α
  | .ok a => .ok a
  | .error _ => .error .badParameter

/-- orthority/cli.py:158-165 `_crs_cb`. -/
def crsCb (env : CrsEnv C) : Option String → Res (Option C)
  | none => .ok none
  | some s => asBad (readCrs env s)

/-- orthority/cli.py:198-207 `_lla_crs_cb`: the attribute `is_geographic` is outside the `try`. -/
def llaCrsCb (env : CrsEnv C) : Option String → Res (Option C)
  | none => .ok none
  | some s => do
    let c ← asBad (readCrs env s)
    match c with
    | none => .error .attributeError
    | some c => if env.geographic c then pure (some c) else .error .badParameter

/-- An fsspec `OpenFile`: its path and mode. -/
structure OFile where
  path : String
  mode : String
  deriving DecidableEq

/-- What the path callbacks use of fsspec: `open_files`, `open`, `isdir` and `mkdirs`. -/
structure FsEnv where
  openFiles : List String → Res (List OFile)
  openOne : String → String → Res OFile
  isDir : OFile → Bool
  mkdirs : OFile → Res Unit

/-- orthority/cli.py:168-182 `_src_files_cb`. -/
def srcFilesCb (env : FsEnv) (files : List String) : Res (List OFile) :=
  if files = [] then .ok []
  else do
    let l ← asBad (env.openFiles files)
    if l = [] then .error .badParameter else pure l

/-- orthority/cli.py:185-195 `_file_cb`. -/
def fileCb (env : FsEnv) (mode : String) : Option String → Res (Option OFile)
  | none => .ok none
  | some s => if s = "" then .ok none else do
    let f ← asBad (env.openOne s mode)
    pure (some f)

/-- `str.rstrip('/')`. -/
def rstripSlash (s : String) : String := String.ofList (s.toList.reverse.dropWhile (· = '/')).reverse

/-- orthority/cli.py:221-236 `_dir_cb`; `fsspec.open` without a mode has the mode `rb`. -/
def dirCb (env : FsEnv) (s : String) : Res OFile := do
  let f ← asBad (env.openOne (rstripSlash s) "rb")
  if env.isDir f then pure f else .error .badParameter

/-- `posixpath.join` for a second part that does not start with a slash. -/
def pathJoin (a b : String) : String := if a = "" ∨ a.toList.getLast? = some '/' then a ++ b else a ++ "/" ++ b

/-- orthority/common.py:240-246 `join_ofile` for an `OpenFile`, without a mode. -/
def joinOfile (base : OFile) (rel : String) : OFile := ⟨pathJoin base.path rel, base.mode⟩

/-- orthority/cli.py:259-272 `_odm_out_dir_cb`; `dataset` is the value of `--dataset-dir`. -/
def odmOutDirCb (env : FsEnv) (dataset : OFile) : Option String → Res OFile
  | some s => if s = "" then mk else dirCb env s
  | none => mk
where
  /-- orthority/cli.py:261-269. -/
  mk : Res OFile := do
    let f := joinOfile dataset "orthority"
    let _ ← asBad (env.mkdirs f)
    pure f

/-- The value of `--gcp-refine`: not given, GCPs of the image tags, or a file. -/
inductive GcpSrc
  | off
  | tags
  | file (f : OFile)
  deriving DecidableEq

/-- orthority/cli.py:275-281 `_gcp_refine_cb`, with the test of its value in `rpc`, orthority/cli.py:1005, 1009.  An empty
string gives `None` as when the option is not given. -/
def gcpRefineCb (env : FsEnv) (v : Option String) : Res GcpSrc :=
  match v with
  | none => do let f ← fileCb env "rt" none; pure (match f with | none => .off | some f => .file f)
  | some s =>
    if s.toList.map Char.toLower = "tags".toList then .ok .tags
    else do let f ← fileCb env "rt" (some s); pure (match f with | none => .off | some f => .file f)

/-! ## Specification -/

/-- The documented values of `--crs` (orthority/cli.py:419-420), apart from the string that names a CRS itself: an image with a
metadata CRS, a path or URI of a text file with a CRS string, and a CRS string that is no file. -/
inductive CrsSays (env : CrsEnv C) (s : String) : C → Prop
  | image {c : C} (ht : env.isTif s = true) (h : env.image s = .ok (some c)) : CrsSays env s c
  | text {c : C} {t : String} (ht : env.isTif s = false) (e : Bool) (he : env.pathExists s = .ok e)
      (hf : e = true ∨ env.isUri s = true) (hr : env.text s = .ok t) (h : env.parse t = .ok c) : CrsSays env s c
  | string {c : C} (ht : env.isTif s = false) (he : env.pathExists s = .ok false) (hu : env.isUri s = false)
      (h : env.parse s = .ok c) : CrsSays env s c

/-! ## Theorems -/

theorem asBad_ok {α : Type} {r : Res α} {a : α} : asBad r = .ok a ↔ r = .ok a := by
  cases r <;> simp [asBad]

theorem asBad_error {α : Type} {r : Res α} {e : PyErr} (h : asBad r = .error e) : e = .badParameter := by
  cases r with
  | ok a => cases h
  | error e' => injection h with h; exact h.symm

theorem readCrs_some (env : CrsEnv C) (s : String) (c : C) : readCrs env s = .ok (some c) ↔ CrsSays env s c := by
  unfold readCrs
  constructor
  · intro h
    by_cases ht : env.isTif s = true
    · rw [if_pos ht] at h
      exact .image ht h
    rw [if_neg ht] at h
    have ht' : env.isTif s = false := by simpa using ht
    cases he : env.pathExists s with
    | error e => rw [he] at h; cases h
    | ok e =>
    rw [he, ok_bind] at h
    by_cases hf : (e || env.isUri s) = true
    · rw [if_pos hf] at h
      cases hr : env.text s with
      | error e => rw [hr] at h; cases h
      | ok t =>
      rw [hr] at h
      simp only [ok_bind] at h
      cases hp : env.parse t with
      | error e => rw [hp] at h; cases h
      | ok c' =>
        rw [hp, ok_bind] at h
        injection h with h
        injection h with h
        subst h
        exact .text ht' e he (by simpa using hf) hr hp
    · rw [if_neg hf] at h
      change (do let c ← env.parse s; pure (some c) : Res (Option C)) = _ at h
      cases hp : env.parse s with
      | error e => rw [hp] at h; cases h
      | ok c' =>
        rw [hp, ok_bind] at h
        injection h with h
        injection h with h
        subst h
        simp only [Bool.or_eq_true, not_or, Bool.not_eq_true] at hf
        obtain ⟨rfl, hu⟩ := hf
        exact .string ht' he hu hp
  · intro h
    cases h with
    | image ht h => rw [if_pos ht, h]
    | text ht e he hf hr h =>
      rw [if_neg (by simp [ht]), he, ok_bind, if_pos (by simpa using hf), hr]
      simp only [ok_bind, h]
      rfl
    | string ht he hu h =>
      rw [if_neg (by simp [ht]), he, ok_bind, if_neg (by simp [hu])]
      show (do let c ← env.parse s; pure (some c) : Res (Option C)) = _
      rw [h, ok_bind]
      rfl

/-- C77: a CRS is returned for `--crs` exactly when it is the one that the value says. -/
theorem C77_crs (env : CrsEnv C) (s : String) (c : C) : crsCb env (some s) = .ok (some c) ↔ CrsSays env s c := by
  rw [← readCrs_some]
  exact asBad_ok

/-- C77: every value that cannot be read is a usage error, whatever the library calls raise. -/
theorem C77_crs_errors (env : CrsEnv C) (v : Option String) (e : PyErr) (h : crsCb env v = .error e) : e = .badParameter := by
  cases v with
  | none => cases h
  | some s => exact asBad_error h

theorem readCrs_none (env : CrsEnv C) (s : String) (h : readCrs env s = .ok none) :
    env.isTif s = true ∧ env.image s = .ok none := by
  unfold readCrs at h
  by_cases ht : env.isTif s = true
  · rw [if_pos ht] at h; exact ⟨ht, h⟩
  exfalso
  rw [if_neg ht] at h
  cases he : env.pathExists s with
  | error e => rw [he] at h; cases h
  | ok e =>
  rw [he, ok_bind] at h
  by_cases hf : (e || env.isUri s) = true
  · rw [if_pos hf] at h
    cases hr : env.text s with
    | error e => rw [hr] at h; cases h
    | ok t =>
    rw [hr] at h
    simp only [ok_bind] at h
    cases hp : env.parse t with
    | error e => rw [hp] at h; cases h
    | ok c' => rw [hp, ok_bind] at h; cases h
  · rw [if_neg hf] at h
    change (do let c ← env.parse s; pure (some c) : Res (Option C)) = _ at h
    cases hp : env.parse s with
    | error e => rw [hp] at h; cases h
    | ok c' => rw [hp, ok_bind] at h; cases h

/-- C77, the part that holds: a value that is given is not ignored, unless it is an image without a CRS.  Missing: such
images (`C77_image_fails`). -/
theorem C77_not_ignored_partial (env : CrsEnv C) (s : String) (hi : env.isTif s = false ∨ env.image s ≠ .ok none) :
    crsCb env (some s) ≠ .ok none := by
  intro h
  obtain ⟨h1, h2⟩ := readCrs_none env s (asBad_ok.1 h)
  rcases hi with hi | hi
  · rw [h1] at hi; cases hi
  · exact hi h2

/-- C77: for every image without a CRS, `--crs` has no effect and there is no error. -/
theorem C77_image_fails (env : CrsEnv C) (s : String) (ht : env.isTif s = true) (h : env.image s = .ok none) :
    crsCb env (some s) = crsCb env none := by
  simp only [crsCb, readCrs, if_pos ht, h, asBad]

/-- C77: a CRS string for which `Path.exists` raises (a WKT string that is longer than a file name can be) is refused,
although it names a CRS. -/
theorem C77_long_string_fails (env : CrsEnv C) (s : String) (c : C) (e : PyErr) (ht : env.isTif s = false)
    (he : env.pathExists s = .error e) (_hp : env.parse s = .ok c) : crsCb env (some s) = .error .badParameter := by
  simp only [crsCb, readCrs, ht, he]
  rfl

/-- C77: the value of `--lla-crs` is the geographic CRS that it says. -/
theorem C77_lla (env : CrsEnv C) (s : String) (c : C) :
    llaCrsCb env (some s) = .ok (some c) ↔ CrsSays env s c ∧ env.geographic c = true := by
  rw [← readCrs_some]
  obtain ⟨r, h⟩ : ∃ r, readCrs env s = r := ⟨_, rfl⟩
  simp only [llaCrsCb, h]
  match r, h with
  | .error e, h => simp [asBad, error_bind]
  | .ok none, h => simp [asBad, ok_bind]
  | .ok (some d), h =>
    by_cases hg : env.geographic d = true
    · simp only [asBad, ok_bind, if_pos hg]
      constructor
      · intro h; injection h with h; injection h with h; subst h; exact ⟨rfl, hg⟩
      · rintro ⟨h, -⟩; exact h
    · simp only [asBad, ok_bind, if_neg hg]
      constructor
      · intro h; cases h
      · rintro ⟨h, h'⟩; injection h with h; injection h with h; subst h; exact absurd h' hg

/-- C77, the part that holds: a value of `--lla-crs` that cannot be used is a usage error, unless it is an image without a
CRS.  Missing: such images (`C77_lla_image_fails`). -/
theorem C77_lla_errors_partial (env : CrsEnv C) (v : Option String) (e : PyErr)
    (hi : ∀ s, v = some s → env.isTif s = true → env.image s ≠ .ok none) (h : llaCrsCb env v = .error e) :
    e = .badParameter := by
  cases v with
  | none => cases h
  | some s =>
    simp only [llaCrsCb] at h
    cases hr : readCrs env s with
    | error e' => rw [hr] at h; simp only [asBad, error_bind] at h; injection h with h; exact h.symm
    | ok o => cases o with
      | none =>
        obtain ⟨h1, h2⟩ := readCrs_none env s hr
        exact absurd h2 (hi s rfl h1)
      | some d =>
        rw [hr] at h
        simp only [asBad, ok_bind] at h
        by_cases hg : env.geographic d = true
        · rw [if_pos hg] at h; cases h
        · rw [if_neg hg] at h; injection h with h; exact h.symm

/-- C77: an image without a CRS given for `--lla-crs` ends in `AttributeError`. -/
theorem C77_lla_image_fails (env : CrsEnv C) (s : String) (ht : env.isTif s = true) (h : env.image s = .ok none) :
    llaCrsCb env (some s) = .error .attributeError := by
  simp only [llaCrsCb, readCrs, if_pos ht, h, asBad, ok_bind]

/-! ### Files and directories -/

/-- C77: the source files are those that fsspec finds for all of the arguments, at least one; otherwise the error is a usage
error. -/
theorem C77_sources (env : FsEnv) (files : List String) (hne : files ≠ []) :
    (∃ l, env.openFiles files = .ok l ∧ l ≠ [] ∧ srcFilesCb env files = .ok l) ∨
      ((∀ l, env.openFiles files = .ok l → l = []) ∧ srcFilesCb env files = .error .badParameter) := by
  unfold srcFilesCb
  rw [if_neg hne]
  cases h : env.openFiles files with
  | error e => exact .inr ⟨(fun l hl => by cases hl), rfl⟩
  | ok l =>
    by_cases hl : l = []
    · refine .inr ⟨(fun l' h' => by injection h' with h'; rw [← h', hl]), ?_⟩
      simp only [asBad, ok_bind, if_pos hl]
    · refine .inl ⟨l, rfl, hl, ?_⟩
      simp only [asBad, ok_bind, if_neg hl]
      rfl

/-- C77: a file option that is given names the file opened in the mode of the option; what fsspec refuses is a usage error. -/
theorem C77_file (env : FsEnv) (mode s : String) (hs : s ≠ "") :
    (∃ f, env.openOne s mode = .ok f ∧ fileCb env mode (some s) = .ok (some f)) ∨
      ((∃ e, env.openOne s mode = .error e) ∧ fileCb env mode (some s) = .error .badParameter) := by
  simp only [fileCb, if_neg hs]
  cases h : env.openOne s mode with
  | error e => exact .inr ⟨⟨e, rfl⟩, rfl⟩
  | ok f => exact .inl ⟨f, rfl, rfl⟩

theorem rstripSlash_eq (s t : String) (k : ℕ) (ht : t.toList.getLast? ≠ some '/')
    (h : s.toList = t.toList ++ List.replicate k '/') : rstripSlash s = t := by
  unfold rstripSlash
  rw [h, List.reverse_append, List.reverse_replicate]
  have h1 : (List.replicate k '/' ++ t.toList.reverse).dropWhile (· = '/') = t.toList.reverse.dropWhile (· = '/') := by
    induction k with
    | zero => rfl
    | succ k ih => simp [List.replicate_succ]
  have h2 : t.toList.reverse.dropWhile (· = '/') = t.toList.reverse := by
    cases hr : t.toList.reverse with
    | nil => rfl
    | cons c l =>
      have : t.toList.getLast? = some c := by rw [List.getLast?_eq_head?_reverse, hr]; rfl
      rw [this] at ht
      have hc : c ≠ '/' := fun h => ht (by rw [h])
      simp [hc]
  rw [h1, h2, List.reverse_reverse, String.ofList_toList]

/-- C77: a directory option names the directory, with or without slashes at its end; what is no directory is a usage error. -/
theorem C77_dir (env : FsEnv) (s t : String) (k : ℕ) (ht : t.toList.getLast? ≠ some '/')
    (h : s.toList = t.toList ++ List.replicate k '/') :
    (∃ f, env.openOne t "rb" = .ok f ∧ env.isDir f = true ∧ dirCb env s = .ok f) ∨
      ((∀ f, env.openOne t "rb" = .ok f → env.isDir f = false) ∧ dirCb env s = .error .badParameter) := by
  unfold dirCb
  rw [rstripSlash_eq s t k ht h]
  cases hf : env.openOne t "rb" with
  | error e => exact .inr ⟨(fun f hf => by cases hf), rfl⟩
  | ok f =>
    by_cases hd : env.isDir f = true
    · refine .inl ⟨f, rfl, hd, ?_⟩
      simp only [asBad, ok_bind, if_pos hd]
      rfl
    · refine .inr ⟨(fun f' h' => by injection h' with h'; rw [← h']; simpa using hd), ?_⟩
      simp only [asBad, ok_bind, if_neg hd]

/-- C77: the root directory cannot be named: `/` is opened as the empty path. -/
theorem C77_root_fails (env : FsEnv) : dirCb env "/" = dirCb env "" := by
  have h1 : rstripSlash "/" = "" := rstripSlash_eq "/" "" 1 (by decide) (by decide)
  have h2 : rstripSlash "" = "" := rstripSlash_eq "" "" 0 (by decide) (by decide)
  unfold dirCb
  rw [h1, h2]

/-- C77: the output directory of `oty odm` is made in the dataset directory when the option is not given, and not otherwise;
when it cannot be made the error is a usage error. -/
theorem C77_odm_out_dir (env : FsEnv) (d : OFile) (v : Option String) (hp : d.path ≠ "")
    (hs : d.path.toList.getLast? ≠ some '/') :
    (v = none ∨ v = some "" →
      (env.mkdirs ⟨d.path ++ "/orthority", d.mode⟩ = .ok () → odmOutDirCb env d v = .ok ⟨d.path ++ "/orthority", d.mode⟩) ∧
      ((∃ e, env.mkdirs ⟨d.path ++ "/orthority", d.mode⟩ = .error e) → odmOutDirCb env d v = .error .badParameter)) ∧
    (∀ s, v = some s → s ≠ "" → odmOutDirCb env d v = dirCb env s) := by
  have hj : joinOfile d "orthority" = ⟨d.path ++ "/orthority", d.mode⟩ := by
    unfold joinOfile pathJoin
    rw [if_neg (by simp [hp, hs])]
    congr 1
    rw [String.append_assoc]
    rfl
  refine ⟨fun hv => ?_, fun s hv hne => ?_⟩
  · have hm : odmOutDirCb env d v = odmOutDirCb.mk env d := by
      rcases hv with rfl | rfl
      · rfl
      · simp [odmOutDirCb]
    rw [hm]
    unfold odmOutDirCb.mk
    simp only [hj]
    constructor
    · intro h; rw [h]; rfl
    · rintro ⟨e, h⟩; rw [h]; rfl
  · subst hv
    simp only [odmOutDirCb, if_neg hne]

/-- C77: `--gcp-refine` refines with the tags for `tags` in any case, with the file of any other value, and not at all when
it is not given. -/
theorem C77_gcp_refine (env : FsEnv) :
    gcpRefineCb env none = .ok .off ∧
    (∀ s : String, s.toList.map Char.toLower = "tags".toList → gcpRefineCb env (some s) = .ok .tags) ∧
    (∀ (s : String) (f : OFile), s ≠ "" → s.toList.map Char.toLower ≠ "tags".toList → env.openOne s "rt" = .ok f →
      gcpRefineCb env (some s) = .ok (.file f)) ∧
    (∀ (s : String) (e : PyErr), s ≠ "" → s.toList.map Char.toLower ≠ "tags".toList → env.openOne s "rt" = .error e →
      gcpRefineCb env (some s) = .error .badParameter) := by
  refine ⟨rfl, fun s h => ?_, fun s f hs h hf => ?_, fun s e hs h hf => ?_⟩
  · simp only [gcpRefineCb, if_pos h]
  · simp only [gcpRefineCb, if_neg h, fileCb, if_neg hs, hf, asBad, ok_bind]
    rfl
  · simp only [gcpRefineCb, if_neg h, fileCb, if_neg hs, hf, asBad, error_bind]

/-! ### Examples -/

/-- An environment with one CRS, EPSG code 4326 as a number, a text file with its name and an image without CRS. -/
def exEnv : CrsEnv ℕ where
  parse s := if s = "EPSG:4326" then .ok 4326 else .error .rasterioError
  isTif s := decide (s = "im.tif")
  image _ := .ok none
  pathExists s := .ok (decide (s = "crs.txt"))
  isUri _ := false
  text _ := .ok "EPSG:4326"
  geographic c := decide (c = 4326)

example : crsCb exEnv (some "EPSG:4326") = .ok (some 4326) := by decide +kernel
example : crsCb exEnv (some "crs.txt") = .ok (some 4326) := by decide +kernel
example : crsCb exEnv (some "EPSG:1") = .error .badParameter := by decide +kernel
example : crsCb exEnv (some "im.tif") = .ok none := by decide +kernel
example : llaCrsCb exEnv (some "crs.txt") = .ok (some 4326) := by decide +kernel
example : CrsSays exEnv "crs.txt" 4326 := .text (by decide +kernel) true (by decide +kernel) (.inl rfl) rfl (by decide +kernel)

/-- Files that open as themselves, with one directory. -/
def exFs : FsEnv where
  openFiles l := .ok (l.map fun s => ⟨s, "rb"⟩)
  openOne s m := .ok ⟨s, m⟩
  isDir f := decide (f.path = "/data")
  mkdirs _ := .ok ()

example : dirCb exFs "/data//" = .ok ⟨"/data", "rb"⟩ := by decide +kernel
example : odmOutDirCb exFs ⟨"/data", "rb"⟩ none = .ok ⟨"/data/orthority", "rb"⟩ := by decide +kernel
example : gcpRefineCb exFs (some "Tags") = .ok .tags := by decide +kernel
example : gcpRefineCb exFs (some "gcps.geojson") = .ok (.file ⟨"gcps.geojson", "rt"⟩) := by decide +kernel
example : srcFilesCb exFs ["a.tif", "b.tif"] = .ok [⟨"a.tif", "rb"⟩, ⟨"b.tif", "rb"⟩] := by decide +kernel

end Verif.Cli
