import Verif.Readers.Csv
import Verif.ParamIO.Oty
import Verif.Exif.Utm

/-!
# World coordinate reference systems of readers and orthos (C78)
-/

set_option autoImplicit false

namespace Verif.Readers

open Res (ok_bind error_bind)

variable {C D : Type}

/-! ## Model -/

/-- What is used of `rasterio.CRS`: `from_string` (which raises rasterio's own `CRSError`, here `rasterioError`), its truth value
(false for an empty CRS), `is_projected` and `is_geographic`. -/
structure CrsOps (C : Type) where
  parse : String → Res C
  truthy : C → Bool
  projected : C → Bool
  geographic : C → Bool

/-- A CRS argument: `None`, a string, or a CRS object. -/
inductive CrsArg (C : Type)
  | none
  | str (s : String)
  | obj (c : C)

/-- `bool(crs)` for an argument. -/
def CrsArg.truthy (ops : CrsOps C) : CrsArg C → Bool
  | .none => false
  | .str s => decide (s ≠ "")
  | .obj c => ops.truthy c

/-- `CRS.from_string(crs) if isinstance(crs, str) else crs`. -/
def CrsArg.toCrs (ops : CrsOps C) : CrsArg C → Res (Option C)
  | .none => .ok Option.none
  | .str s => (ops.parse s).map some
  | .obj c => .ok (some c)

/-- One of the arguments of `FrameReader._parse_crss`, orthority/param_io.py:878-884 and 886-892; `kind` is the test of its
kind.  An argument that is false stays as it is, which all uses take as not given. -/
def parseCrsArg (ops : CrsOps C) (kind : C → Bool) (a : CrsArg C) : Res (Option C) :=
  if a.truthy ops then
    match a.toCrs ops with
    | .error e => .error (if e = .rasterioError then .crsError else e)
    | .ok none => .ok none
    | .ok (some c) => if kind c then .ok (some c) else .error .crsError
  else .ok none

/-- orthority/param_io.py:876-893 `FrameReader._parse_crss`. -/
def parseCrss (ops : CrsOps C) (crs lla : CrsArg C) : Res (Option C × Option C) := do
  let crs ← parseCrsArg ops ops.projected crs
  let lla ← parseCrsArg ops ops.geographic lla
  pure (crs, lla)

/-- The CRS of a `CsvReader`, orthority/param_io.py:971-996. -/
def csvReaderCrs (ops : CrsOps C) (crs lla : CrsArg C) (norm : String → String) (user header : Option (List String)) (prj : Prj C)
    (utm : Res C) : Res (Option C) := do
  let (crs, _) ← parseCrss ops crs lla
  let (_, _, c) ← csvInit norm user header crs prj utm
  pure c

/-- The CRS of an `OsfmReader`, orthority/param_io.py:1190-1201; `json` is the outcome of reading the file and `utm` of finding
a UTM CRS. -/
def osfmReaderCrs (ops : CrsOps C) (crs lla : CrsArg C) (json : Res Unit) (utm : Res C) : Res (Option C) := do
  let (crs, _) ← parseCrss ops crs lla
  let _ ← json
  match crs with
  | some c => pure (some c)
  | none => do let c ← utm; pure (some c)

/-- The CRS of an `ExifReader`, orthority/param_io.py:1295-1301; `count` is the number of images read. -/
def exifReaderCrs (ops : CrsOps C) (crs lla : CrsArg C) (count : Res ℕ) (utm : Res C) : Res (Option C) := do
  let (crs, _) ← parseCrss ops crs lla
  let n ← count
  match crs with
  | some c => pure (some c)
  | none => if 0 < n then do let c ← utm; pure (some c) else pure none

/-- orthority/ortho.py:112-125 `Ortho._parse_crs`; `src` is the CRS of the source image (or the exception when it is opened). -/
def parseOrthoCrs (ops : CrsOps C) (crs : CrsArg C) (src : Res (Option C)) : Res (Option C) :=
  if crs.truthy ops then crs.toCrs ops
  else do
    match ← src with
    | none => .error .crsMissingError
    | some c => if ops.truthy c then pure (some c) else .error .crsMissingError

/-- orthority/ortho.py:85-105 `Ortho.__init__`: the CRS, and the DEM and ground sampling distance found with it (`dem`). -/
def orthoInit (ops : CrsOps C) (isCamera : Bool) (crs : CrsArg C) (src : Res (Option C)) (dem : Option C → Res D) :
    Res (Option C × D) :=
  if ¬ isCamera then .error .typeError
  else do
    let c ← parseOrthoCrs ops crs src
    let d ← dem c
    pure (c, d)

/-! ## Specification -/

/-- The CRS that an argument names: a string that can be read, or a CRS object that is not empty. -/
inductive Names (ops : CrsOps C) : CrsArg C → C → Prop
  | str {s : String} {c : C} (hs : s ≠ "") (h : ops.parse s = .ok c) : Names ops (.str s) c
  | obj {c : C} (h : ops.truthy c = true) : Names ops (.obj c) c

/-- An argument that is not given: `None`, an empty string or an empty CRS. -/
inductive NotGiven (ops : CrsOps C) : CrsArg C → Prop
  | none : NotGiven ops .none
  | empty : NotGiven ops (.str "")
  | emptyCrs {c : C} (h : ops.truthy c = false) : NotGiven ops (.obj c)

/-! ## Theorems -/

theorem notGiven_iff (ops : CrsOps C) (a : CrsArg C) : NotGiven ops a ↔ a.truthy ops = false := by
  constructor
  · rintro (_ | _ | h)
    · rfl
    · simp [CrsArg.truthy]
    · exact h
  · intro h
    cases a with
    | none => exact .none
    | str s =>
      have : s = "" := by simpa [CrsArg.truthy] using h
      subst this
      exact .empty
    | obj c => exact .emptyCrs h

theorem names_iff (ops : CrsOps C) (a : CrsArg C) (c : C) : Names ops a c ↔ a.truthy ops = true ∧ a.toCrs ops = .ok (some c) := by
  constructor
  · rintro (⟨hs, h⟩ | h)
    · exact ⟨by simp [CrsArg.truthy, hs], by simp [CrsArg.toCrs, h, Except.map]⟩
    · exact ⟨h, rfl⟩
  · rintro ⟨h1, h2⟩
    cases a with
    | none => cases h1
    | str s =>
      refine .str (by simpa [CrsArg.truthy] using h1) ?_
      cases hp : ops.parse s with
      | error e => rw [CrsArg.toCrs, hp] at h2; cases h2
      | ok d => rw [CrsArg.toCrs, hp] at h2; injection h2 with h2; injection h2 with h2; rw [h2]
    | obj d => injection h2 with h2; injection h2 with h2; subst h2; exact .obj h1

theorem parseCrsArg_ok (ops : CrsOps C) (kind : C → Bool) (a : CrsArg C) (o : Option C) :
    parseCrsArg ops kind a = .ok o ↔ (NotGiven ops a ∧ o = none) ∨ ∃ c, o = some c ∧ Names ops a c ∧ kind c = true := by
  simp only [notGiven_iff, names_iff]
  unfold parseCrsArg
  by_cases ht : a.truthy ops = true
  · rw [if_pos ht]
    have hne : a.toCrs ops ≠ .ok none := by
      cases a with
      | none => cases ht
      | str s =>
        intro h
        cases hp : ops.parse s with
        | error e => rw [CrsArg.toCrs, hp] at h; cases h
        | ok d => rw [CrsArg.toCrs, hp] at h; cases h
      | obj c => simp [CrsArg.toCrs]
    cases h : a.toCrs ops with
    | error e => simp [ht]
    | ok x => cases x with
      | none => exact absurd h hne
      | some d =>
        by_cases hk : kind d = true
        · simp only [if_pos hk, ht]
          constructor
          · intro h; injection h with h; exact .inr ⟨d, h.symm, ⟨trivial, rfl⟩, hk⟩
          · rintro (⟨h, -⟩ | ⟨c, rfl, ⟨-, h⟩, -⟩)
            · cases h
            · exact h
        · simp only [if_neg hk, ht]
          constructor
          · intro h; cases h
          · rintro (⟨h, -⟩ | ⟨c, rfl, ⟨-, h⟩, hc⟩)
            · cases h
            · injection h with h; injection h with h; subst h; exact absurd hc hk
  · have ht' : a.truthy ops = false := by simpa using ht
    rw [if_neg ht]
    simp only [ht']
    constructor
    · intro h; injection h with h; exact .inl ⟨trivial, h.symm⟩
    · rintro (⟨-, rfl⟩ | ⟨c, -, ⟨h, -⟩, -⟩)
      · rfl
      · cases h

/-- C78: the world CRS of a frame reader is the projected CRS that the argument names, and the CRS of geographic coordinates the
geographic CRS that its argument names; other CRSs are refused. -/
theorem C78_reader (ops : CrsOps C) (crs lla : CrsArg C) (w g : Option C) :
    parseCrss ops crs lla = .ok (w, g) ↔
      ((NotGiven ops crs ∧ w = none) ∨ ∃ c, w = some c ∧ Names ops crs c ∧ ops.projected c = true) ∧
      ((NotGiven ops lla ∧ g = none) ∨ ∃ c, g = some c ∧ Names ops lla c ∧ ops.geographic c = true) := by
  rw [← parseCrsArg_ok, ← parseCrsArg_ok]
  unfold parseCrss
  cases h1 : parseCrsArg ops ops.projected crs with
  | error e => simp [error_bind]
  | ok w' => cases h2 : parseCrsArg ops ops.geographic lla with
    | error e => simp [ok_bind]
    | ok g' =>
      simp only [ok_bind]
      constructor
      · intro h; injection h with h; injection h with ha hb; subst ha hb; exact ⟨rfl, rfl⟩
      · rintro ⟨ha, hb⟩; injection ha with ha; injection hb with hb; subst ha hb; rfl

theorem parseCrsArg_error (ops : CrsOps C) (hp : ∀ s e, ops.parse s = .error e → e = .rasterioError) (kind : C → Bool)
    (a : CrsArg C) (e : PyErr) (h : parseCrsArg ops kind a = .error e) : e = .crsError := by
  unfold parseCrsArg at h
  by_cases ht : a.truthy ops = true
  · rw [if_pos ht] at h
    cases hc : a.toCrs ops with
    | error e' =>
      rw [hc] at h
      have he : e' = .rasterioError := by
        cases a with
        | none => cases hc
        | str s =>
          cases hs : ops.parse s with
          | error e'' =>
            rw [CrsArg.toCrs, hs] at hc
            injection hc with hc
            rw [← hc]; exact hp s e'' hs
          | ok c => rw [CrsArg.toCrs, hs] at hc; cases hc
        | obj c => cases hc
      rw [he] at h
      injection h with h
      simpa using h.symm
    | ok x => rw [hc] at h; cases x with
      | none => cases h
      | some d =>
        simp only at h
        by_cases hk : kind d = true
        · rw [if_pos hk] at h; cases h
        · rw [if_neg hk] at h; injection h with h; exact h.symm
  · rw [if_neg ht] at h; cases h

/-- C78: every CRS argument that a frame reader refuses ends in `CrsError`. -/
theorem C78_reader_errors (ops : CrsOps C) (hp : ∀ s e, ops.parse s = .error e → e = .rasterioError) (crs lla : CrsArg C) (e : PyErr)
    (h : parseCrss ops crs lla = .error e) : e = .crsError := by
  unfold parseCrss at h
  cases h1 : parseCrsArg ops ops.projected crs with
  | error e' =>
    rw [h1] at h
    injection h with h
    rw [← h]; exact parseCrsArg_error ops hp _ _ _ h1
  | ok w => cases h2 : parseCrsArg ops ops.geographic lla with
    | error e' =>
      rw [h1, ok_bind, h2] at h
      injection h with h
      rw [← h]; exact parseCrsArg_error ops hp _ _ _ h2
    | ok g => rw [h1, ok_bind, h2] at h; cases h

theorem csvCrs_projected (P : C → Bool) {fmt : CsvFormat} {prj : Prj C} {utm : Res C} {c : C} (hu : ∀ c, utm = .ok c → P c = true)
    (hpj : ∀ c p, prj = .crs c p → p = P c) (h : csvCrs fmt prj utm = .ok (some c)) : P c = true := by
  have hread : ∀ c, (match prj with
    | .unknown => .ok none
    | .missing => .ok none
    | .bad => .error .paramError
    | .crs c p => if p then .ok (some c) else .error .paramError : Res (Option C)) = .ok (some c) → P c = true := by
    intro c h
    cases prj with
    | unknown => cases h
    | missing => cases h
    | bad => cases h
    | crs d p =>
      have hp := hpj d p rfl
      simp only at h
      by_cases hb : p = true
      · rw [if_pos hb] at h; injection h with h; injection h with h; subst h; rw [← hp, hb]
      · rw [if_neg hb] at h; cases h
  unfold csvCrs at h
  simp only at h
  cases fmt with
  | xyzOpk => exact hread c h
  | xyzRpy =>
    simp only at h
    split at h
    · cases h
    · exact hread c h
  | llaRpy =>
    cases hutm : utm with
    | ok d => rw [hutm] at h; injection h with h; injection h with h; subst h; exact hu d hutm
    | error e => rw [hutm] at h; cases h
  | llaOpk => cases h

/-- C78, the part that holds: the world CRS of CSV, OpenSfM and EXIF readers is projected, whether it is an argument, from a
`.prj` file or a UTM CRS.  Missing: Orthority files (`C78_oty_fails`). -/
theorem C78_projected_partial (ops : CrsOps C) (crs lla : CrsArg C) (norm : String → String) (user header : Option (List String))
    (prj : Prj C) (json : Res Unit) (count : Res ℕ) (utm : Res C) (hu : ∀ c, utm = .ok c → ops.projected c = true)
    (hpj : ∀ c p, prj = .crs c p → p = ops.projected c) (c : C)
    (h : csvReaderCrs ops crs lla norm user header prj utm = .ok (some c) ∨ osfmReaderCrs ops crs lla json utm = .ok (some c) ∨
      exifReaderCrs ops crs lla count utm = .ok (some c)) : ops.projected c = true := by
  have given : ∀ w g d, parseCrss ops crs lla = .ok (w, g) → w = some d → ops.projected d = true := by
    intro w g d hw hd
    rcases ((C78_reader ops crs lla w g).1 hw).1 with ⟨-, h⟩ | ⟨c', h, -, hk⟩
    · rw [hd] at h; cases h
    · rw [hd] at h; injection h with h; rw [h]; exact hk
  rcases h with h | h | h
  · unfold csvReaderCrs at h
    cases hp : parseCrss ops crs lla with
    | error e => rw [hp] at h; cases h
    | ok wg =>
    obtain ⟨w, g⟩ := wg
    rw [hp] at h
    simp only [ok_bind] at h
    cases hc : csvInit norm user header w prj utm with
    | error e => rw [hc] at h; cases h
    | ok r =>
    obtain ⟨fields, fmt, o⟩ := r
    rw [hc] at h
    simp only [ok_bind] at h
    injection h with h
    subst h
    unfold csvInit at hc
    cases hf : parseFile norm user header with
    | error e => rw [hf] at hc; cases hc
    | ok ff =>
    obtain ⟨f1, f2⟩ := ff
    rw [hf] at hc
    cases w with
    | some d =>
      injection hc with hc
      simp only [Prod.mk.injEq] at hc
      have : d = c := by injection hc.2.2
      subst this
      exact given _ g d hp rfl
    | none =>
      simp only at hc
      cases hcc : csvCrs f2 prj utm with
      | error e => rw [hcc] at hc; cases hc
      | ok o =>
        rw [hcc] at hc
        injection hc with hc
        simp only [Prod.mk.injEq] at hc
        obtain ⟨-, -, rfl⟩ := hc
        exact csvCrs_projected ops.projected hu hpj hcc
  · unfold osfmReaderCrs at h
    cases hp : parseCrss ops crs lla with
    | error e => rw [hp] at h; cases h
    | ok wg =>
    obtain ⟨w, g⟩ := wg
    rw [hp] at h
    simp only [ok_bind] at h
    cases json with
    | error e => cases h
    | ok u =>
    simp only [ok_bind] at h
    cases w with
    | some d => injection h with h; injection h with h; subst h; exact given _ g d hp rfl
    | none =>
      cases hutm : utm with
      | error e => rw [hutm] at h; cases h
      | ok d => rw [hutm] at h; injection h with h; injection h with h; subst h; exact hu d hutm
  · unfold exifReaderCrs at h
    cases hp : parseCrss ops crs lla with
    | error e => rw [hp] at h; cases h
    | ok wg =>
    obtain ⟨w, g⟩ := wg
    rw [hp] at h
    simp only [ok_bind] at h
    cases count with
    | error e => cases h
    | ok n =>
    simp only [ok_bind] at h
    cases w with
    | some d => injection h with h; injection h with h; subst h; exact given _ g d hp rfl
    | none =>
      simp only at h
      by_cases hn : 0 < n
      · rw [if_pos hn] at h
        cases hutm : utm with
        | error e => rw [hutm] at h; cases h
        | ok d => rw [hutm] at h; injection h with h; injection h with h; subst h; exact hu d hutm
      · rw [if_neg hn] at h; cases h

/-- C78: a CRS that is given and can be used is the CRS of the reader, whatever the file says. -/
theorem C78_reader_given (ops : CrsOps C) (crs lla : CrsArg C) (norm : String → String) (user header : Option (List String))
    (prj : Prj C) (utm : Res C) (count : ℕ) (c : C) (hn : Names ops crs c) (hl : NotGiven ops lla) :
    (∀ r, parseFile norm user header = .ok r → ops.projected c = true →
      csvReaderCrs ops crs lla norm user header prj utm = .ok (some c)) ∧
    (ops.projected c = true → osfmReaderCrs ops crs lla (.ok ()) utm = .ok (some c) ∧
      exifReaderCrs ops crs lla (.ok count) utm = .ok (some c)) ∧
    (ops.projected c = false → ∀ json n, csvReaderCrs ops crs lla norm user header prj utm = .error .crsError ∧
      osfmReaderCrs ops crs lla json utm = .error .crsError ∧ exifReaderCrs ops crs lla n utm = .error .crsError) := by
  have hok : ops.projected c = true → parseCrss ops crs lla = .ok (some c, none) := fun hp =>
    (C78_reader ops crs lla _ _).2 ⟨.inr ⟨c, rfl, hn, hp⟩, .inl ⟨hl, rfl⟩⟩
  refine ⟨fun r hr hp => ?_, fun hp => ⟨?_, ?_⟩, fun hp json n => ?_⟩
  · obtain ⟨f, fmt⟩ := r
    simp only [csvReaderCrs, hok hp, ok_bind, csvInit, hr]
    rfl
  · simp only [osfmReaderCrs, hok hp, ok_bind]; rfl
  · simp only [exifReaderCrs, hok hp, ok_bind]; rfl
  · have herr : parseCrss ops crs lla = .error .crsError := by
      obtain ⟨h1, h2⟩ := (names_iff ops crs c).1 hn
      simp only [parseCrss, parseCrsArg, if_pos h1, h2, hp]
      rfl
    simp only [csvReaderCrs, osfmReaderCrs, exifReaderCrs, herr, error_bind, and_self]

/-- C78: an Orthority exterior parameter file is read with a world CRS that is not projected, though the same CRS is refused
as an argument of the other readers. -/
theorem C78_oty_fails (lib : ParamIO.CrsLib C) (ops : CrsOps C) (c : C) (s : String) (hs : lib.parse s = some c)
    (hops : ops.parse s = .ok c) (hne : s ≠ "") (hp : ops.projected c = false) :
    (∃ json : ParamIO.Py ℚ, ParamIO.readOtyExt lib json =
      .ok (c, [(.str "a", ⟨[.int 1, .int 2, .int 3], [.int 4, .int 5, .int 6], .null⟩)])) ∧
    parseCrss ops (.str s) .none = .error .crsError := by
  constructor
  · refine ⟨ParamIO.strDict [("type", .str "FeatureCollection"), ("world_crs", .str s), ("features",
      .list [ParamIO.extFeature (fun l => l) "a" ⟨[.int 1, .int 2, .int 3], [.int 4, .int 5, .int 6], .null⟩])], ?_⟩
    have h : ParamIO.otyReaderInit lib (ParamIO.strDict [("type", .str "FeatureCollection"), ("world_crs", .str s), ("features",
      .list [ParamIO.extFeature (F := ℚ) (fun l => l) "a" ⟨[.int 1, .int 2, .int 3], [.int 4, .int 5, .int 6], .null⟩])]) =
      (match lib.parse s with
        | some crs => .ok (crs, _)
        | none => .error .paramError) := rfl
    rw [hs] at h
    unfold ParamIO.readOtyExt
    rw [h]
    rfl
  · have h1 : (CrsArg.str s).truthy ops = true := by simp [CrsArg.truthy, hne]
    simp only [parseCrss, parseCrsArg, if_pos h1, CrsArg.toCrs, hops, Except.map, hp]
    rfl

/-- C78: the CRS of an ortho is the one given, or that of the source image when none is given; an image without a CRS
ends in `CrsMissingError`. -/
theorem C78_ortho (ops : CrsOps C) (crs : CrsArg C) (src : Res (Option C)) (dem : Option C → Res D) :
    (∀ c, Names ops crs c → ∀ d, dem (some c) = .ok d → orthoInit ops true crs src dem = .ok (some c, d)) ∧
    (NotGiven ops crs → (∀ c d, src = .ok (some c) → ops.truthy c = true → dem (some c) = .ok d →
      orthoInit ops true crs src dem = .ok (some c, d))) ∧
    (NotGiven ops crs → (src = .ok none ∨ ∃ c, src = .ok (some c) ∧ ops.truthy c = false) →
      orthoInit ops true crs src dem = .error .crsMissingError) := by
  refine ⟨fun c hn d hd => ?_, fun hg c d hsrc ht hd => ?_, fun hg hsrc => ?_⟩
  · obtain ⟨h1, h2⟩ := (names_iff ops crs c).1 hn
    simp only [orthoInit, parseOrthoCrs, if_pos h1, h2, ok_bind, hd]
    rfl
  · have h1 := (notGiven_iff ops crs).1 hg
    simp only [orthoInit, parseOrthoCrs, h1, hsrc, ok_bind, ht]
    simp only [not_true_eq_false, if_false, Bool.false_eq_true, if_true]
    show (do let c ← (.ok (some c) : Res (Option C)); let d ← dem c; pure (c, d)) = _
    simp only [ok_bind, hd]
    rfl
  · have h1 := (notGiven_iff ops crs).1 hg
    rcases hsrc with rfl | ⟨c, rfl, ht⟩
    · simp only [orthoInit, parseOrthoCrs, h1, ok_bind]; rfl
    · simp only [orthoInit, parseOrthoCrs, h1, ok_bind, ht]; rfl

/-- C78: when a CRS is given the source image is not opened for it. -/
theorem C78_ortho_source (ops : CrsOps C) (crs : CrsArg C) (hg : ¬ NotGiven ops crs) (isCamera : Bool) (src src' : Res (Option C))
    (dem : Option C → Res D) : orthoInit ops isCamera crs src dem = orthoInit ops isCamera crs src' dem := by
  rw [notGiven_iff] at hg
  have h1 : crs.truthy ops = true := by simpa using hg
  simp only [orthoInit, parseOrthoCrs, if_pos h1]

/-- C78: what is no camera is refused before any file is opened. -/
theorem C78_ortho_camera (ops : CrsOps C) (crs : CrsArg C) (src : Res (Option C)) (dem : Option C → Res D) :
    orthoInit ops false crs src dem = .error .typeError := by
  simp [orthoInit]

/-- C78: a CRS string that cannot be read ends in an exception of rasterio, and not in the `CrsError` of the readers. -/
theorem C78_ortho_string_fails (ops : CrsOps C) (s : String) (hs : s ≠ "") (h : ops.parse s = .error .rasterioError)
    (src : Res (Option C)) (dem : Option C → Res D) :
    orthoInit ops true (.str s) src dem = .error .rasterioError ∧ parseCrss ops (.str s) .none = .error .crsError := by
  have h1 : (CrsArg.str s).truthy ops = true := by simp [CrsArg.truthy, hs]
  constructor
  · simp only [orthoInit, parseOrthoCrs, if_pos h1, CrsArg.toCrs, h]
    rfl
  · simp only [parseCrss, parseCrsArg, if_pos h1, CrsArg.toCrs, h]
    rfl

/-! ### Examples -/

/-- EPSG codes as CRSs: 32735 is projected, 4326 is geographic, 0 is the empty CRS. -/
def exOps : CrsOps ℕ where
  parse s := if s = "EPSG:32735" then .ok 32735 else if s = "EPSG:4326" then .ok 4326 else .error .rasterioError
  truthy c := decide (c ≠ 0)
  projected c := decide (c = 32735)
  geographic c := decide (c = 4326)

example : parseCrss exOps (.str "EPSG:32735") (.obj 4326) = .ok (some 32735, some 4326) := by decide +kernel
example : parseCrss exOps (.str "EPSG:4326") (.obj 4326) = .error .crsError := by decide +kernel
example : parseCrss exOps (.obj 0) .none = .ok (none, none) := by decide +kernel
example : Names exOps (.str "EPSG:32735") 32735 := .str (by decide) (by decide +kernel)
example : orthoInit exOps true .none (.ok (some 32735)) (fun _ => .ok 7) = .ok (some 32735, 7) := by decide +kernel
example : orthoInit exOps true (.str "EPSG:32735") (.error .fileNotFoundError) (fun _ => .ok 7) = .ok (some 32735, 7) := by
  decide +kernel
example : exifReaderCrs exOps .none .none (.ok 2) (.ok 32735) = .ok (some 32735) := by decide +kernel

example : ∃ json : ParamIO.Py ℚ, ParamIO.readOtyExt ⟨fun s => if s = "EPSG:4326" then some 4326 else none, fun _ => "", fun c => c = 32735⟩ json =
    .ok (4326, [(.str "a", ⟨[.int 1, .int 2, .int 3], [.int 4, .int 5, .int 6], .null⟩)]) :=
  (C78_oty_fails _ exOps 4326 "EPSG:4326" (by decide) (by decide +kernel) (by decide) (by decide)).1
example : csvReaderCrs exOps .none (.obj 4326) id none (some ["filename", "x", "y", "z", "omega", "phi", "kappa"]) (.crs 32735 true)
    (.error .paramError) = .ok (some 32735) := by decide +kernel

end Verif.Readers
