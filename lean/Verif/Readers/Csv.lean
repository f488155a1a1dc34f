import Verif.Base.Err
import Verif.Base.Dict
import Mathlib.Tactic.SplitIfs
import Mathlib.Data.List.Zip
import Mathlib.Tactic.Tauto

/-!
# C25: CSV exterior parameter files
-/

set_option autoImplicit false

namespace Verif.Readers

/-- orthority/enums.py:123-143. -/
inductive CsvFormat
  | xyzOpk | xyzRpy | llaOpk | llaRpy
  deriving DecidableEq, Repr

def CsvFormat.isXyz : CsvFormat → Bool
  | .xyzOpk => true
  | .xyzRpy => true
  | _ => false

def CsvFormat.isOpk : CsvFormat → Bool
  | .xyzOpk => true
  | .llaOpk => true
  | _ => false

def hasAll (names fields : List String) : Bool := names.all fun n => fields.contains n

/-- orthority/param_io.py:999-1027 `CsvReader._parse_fieldnames`. -/
def parseFieldnames (fields : List String) : Res CsvFormat :=
  if !fields.contains "filename" then .error .paramError
  else
    let xyz := hasAll ["x", "y", "z"] fields
    let lla := hasAll ["latitude", "longitude", "altitude"] fields
    let opk := hasAll ["omega", "phi", "kappa"] fields
    let rpy := hasAll ["roll", "pitch", "yaw"] fields
    if !(xyz || lla) then .error .paramError
    else if !(opk || rpy) then .error .paramError
    else .ok (match xyz, opk with
      | true, true => .xyzOpk
      | true, false => .xyzRpy
      | false, true => .llaOpk
      | false, false => .llaRpy)

/-- orthority/param_io.py:959 `_legacy_fieldnames`. -/
def legacyFields : List String := ["filename", "x", "y", "z", "omega", "phi", "kappa"]

/-- The field names of a file, orthority/param_io.py:1051-1056 (part of `_parse_file`): those of the user,
else those of the header, else the legacy ones. -/
def fileFields (user header : Option (List String)) : List String :=
  match user with
  | some (f :: fs) => f :: fs
  | _ => match header with
    | some fs => fs
    | none => legacyFields

/-- orthority/param_io.py:1030-1059 `CsvReader._parse_file`: `user` are field names given by the user,
`header` the first row when the sniffer finds that it is a header, `norm` is `s.strip().lower()`.  The
dialect is not modelled. -/
def parseFile (norm : String → String) (user header : Option (List String)) : Res (List String × CsvFormat) :=
  let fields := (fileFields user header).map norm
  match parseFieldnames fields with
  | .error e => .error e
  | .ok fmt => .ok (fields, fmt)

/-- What there is to read at the path of the `.prj` file. -/
inductive Prj (C : Type)
  | unknown
  | missing
  | bad
  | crs (c : C) (projected : Bool)

/-- orthority/param_io.py:1078-1117 `CsvReader._get_crs`; `utm` is the UTM CRS of the mean position. -/
def csvCrs {C : Type} (fmt : CsvFormat) (prj : Prj C) (utm : Res C) : Res (Option C) :=
  let read : Res (Option C) := match prj with
    | .unknown => .ok none
    | .missing => .ok none
    | .bad => .error .paramError
    | .crs c p => if p then .ok (some c) else .error .paramError
  match fmt with
  | .xyzOpk => read
  | .xyzRpy => match read with
    | .ok none => .error .crsMissingError
    | r => r
  | .llaRpy => match utm with
    | .ok c => .ok (some c)
    | .error e => .error e
  | .llaOpk => .error .crsMissingError

/-- orthority/param_io.py:961-996 `CsvReader.__init__`: field names, format and CRS. -/
def csvInit {C : Type} (norm : String → String) (user header : Option (List String)) (crs : Option C)
    (prj : Prj C) (utm : Res C) : Res (List String × CsvFormat × Option C) :=
  match parseFile norm user header with
  | .error e => .error e
  | .ok (fields, fmt) => match crs with
    | some c => .ok (fields, fmt, some c)
    | none => match csvCrs fmt prj utm with
      | .error e => .error e
      | .ok c => .ok (fields, fmt, c)

/-- A row as `csv.DictReader` gives it: the values under the field names, `None` where there are too few.
Values without a field name are left out. -/
def mkRow (fields vals : List String) : Dict String (Option String) :=
  Dict.ofItems ((fields.zip (vals.map some ++ List.replicate (fields.length - vals.length) none)))

variable {K : Type}

/-- A converted value of a row. -/
inductive Cell (K : Type)
  | flt (x : K)
  | str (s : String)
  | null

/-- Fields that are converted to float, orthority/param_io.py:943-958 `_type_schema`. -/
def floatFields : List String :=
  ["x", "y", "z", "latitude", "longitude", "altitude", "omega", "phi", "kappa", "roll", "pitch", "yaw"]

/-- `self._type_schema[k](v)`; `str(None)` for the file name is `'None'`. -/
def convertCell (parse : String → Option K) (k : String) (v : Option String) : Res (Cell K) :=
  if k ∈ floatFields then
    match v with
    | none => .error .typeError
    | some s => match parse s with
      | none => .error .valueError
      | some x => .ok (.flt x)
  else if k = "filename" then .ok (.str (v.getD "None"))
  else match v with
    | none => .ok .null
    | some s => .ok (.str s)

/-- `{k: self._type_schema[k](v) for k, v in row.items() if k in self._type_schema}`,
orthority/param_io.py:1153. -/
def convertRow (parse : String → Option K) : Dict String (Option String) → Res (Dict String (Cell K))
  | [] => .ok []
  | (k, v) :: row =>
    if k ∈ floatFields ∨ k = "filename" ∨ k = "camera" then
      match convertCell parse k v with
      | .error e => .error e
      | .ok c => match convertRow parse row with
        | .error e => .error e
        | .ok r => .ok ((k, c) :: r)
    else convertRow parse row

/-- `row[k]` for a field that is a float. -/
def cell (row : Dict String (Cell K)) (k : String) : Res K :=
  match Dict.get? row k with
  | none => .error .keyError
  | some (.flt x) => .ok x
  | some _ => .error .typeError

def cell3 (row : Dict String (Cell K)) (a b c : String) : Res (K × K × K) :=
  match cell row a, cell row b, cell row c with
  | .ok x, .ok y, .ok z => .ok (x, y, z)
  | .error e, _, _ => .error e
  | _, .error e, _ => .error e
  | _, _, .error e => .error e

/-- Conversions of coordinates and angles that are not modelled here (PROJ, C36 and `numpy.radians`). -/
structure Conv (K : Type) where
  toXyz : K × K × K → K × K × K
  toLla : K × K × K → K × K × K
  radians : K × K × K → K × K × K
  rpyToOpk : K × K × K → K × K × K → K × K × K

/-- orthority/param_io.py:1119-1141 `CsvReader._convert`. -/
def convert (cv : Conv K) (fmt : CsvFormat) (radians : Bool) (row : Dict String (Cell K)) :
    Res ((K × K × K) × (K × K × K)) :=
  let pos : Res ((K × K × K) × (K × K × K)) :=
    if fmt.isXyz then match cell3 row "x" "y" "z" with
      | .error e => .error e
      | .ok xyz => .ok (xyz, cv.toLla xyz)
    else match cell3 row "latitude" "longitude" "altitude" with
      | .error e => .error e
      | .ok lla => .ok (cv.toXyz lla, lla)
  match pos with
  | .error e => .error e
  | .ok (xyz, lla) =>
    if fmt.isOpk then match cell3 row "omega" "phi" "kappa" with
      | .error e => .error e
      | .ok opk => .ok (xyz, if radians then opk else cv.radians opk)
    else match cell3 row "roll" "pitch" "yaw" with
      | .error e => .error e
      | .ok rpy => .ok (xyz, cv.rpyToOpk (if radians then rpy else cv.radians rpy) lla)

/-- orthority/param_io.py:1153-1154: one row of `CsvReader.read_ext_param`. -/
def readRow (parse : String → Option K) (cv : Conv K) (fmt : CsvFormat) (radians : Bool)
    (row : Dict String (Option String)) : Res ((K × K × K) × (K × K × K)) :=
  match convertRow parse row with
  | .error e => .error e
  | .ok r => convert cv fmt radians r

/-- Entry of the exterior parameter dictionary. -/
structure CsvExt (K : Type) where
  xyz : K × K × K
  opk : K × K × K
  camera : Option String

/-- `row.get('camera', None)` of the converted row, orthority/param_io.py:1153-1155. -/
def rowCamera (parse : String → Option K) (row : Dict String (Option String)) : Option String :=
  match convertRow parse row with
  | .error _ => none
  | .ok r => match Dict.get? r "camera" with
    | some (.str s) => some s
    | _ => none

/-- orthority/param_io.py:1143-1157 `CsvReader.read_ext_param`; `name` is `Path(s).name`, and
`Path(None)` raises `TypeError`.  `rows` are those after the header row (`csvRows`). -/
def readCsv (name : String → String) (parse : String → Option K) (cv : Conv K) (fmt : CsvFormat)
    (radians : Bool) : List (Dict String (Option String)) → Dict String (CsvExt K) → Res (Dict String (CsvExt K))
  | [], acc => .ok acc
  | row :: rows, acc => match Dict.get? row "filename" with
    | none => .error .keyError
    | some none => .error .typeError
    | some (some s) => match readRow parse cv fmt radians row with
      | .error e => .error e
      | .ok (xyz, opk) =>
        readCsv name parse cv fmt radians rows (Dict.set acc (name s) ⟨xyz, opk, rowCamera parse row⟩)

/-! ## Specification -/

/-- The field names that a format needs. -/
def CsvFormat.needs : CsvFormat → List String
  | .xyzOpk => ["filename", "x", "y", "z", "omega", "phi", "kappa"]
  | .xyzRpy => ["filename", "x", "y", "z", "roll", "pitch", "yaw"]
  | .llaOpk => ["filename", "latitude", "longitude", "altitude", "omega", "phi", "kappa"]
  | .llaRpy => ["filename", "latitude", "longitude", "altitude", "roll", "pitch", "yaw"]

/-- Order of preference. -/
def CsvFormat.all : List CsvFormat := [.xyzOpk, .xyzRpy, .llaOpk, .llaRpy]

theorem hasAll_iff (names fields : List String) : hasAll names fields = true ↔ ∀ n ∈ names, n ∈ fields := by
  simp [hasAll]

/-- C25: the format is the first, in the order of preference, for which all field names that it needs are
there; `ParamError` is raised when there is none. -/
theorem C25_format (fields : List String) :
    parseFieldnames fields =
      match CsvFormat.all.find? fun f => f.needs.all fun n => decide (n ∈ fields) with
      | some f => .ok f
      | none => .error .paramError := by
  unfold parseFieldnames
  simp only [CsvFormat.all, CsvFormat.needs, List.find?_cons, List.find?_nil, List.all_cons, List.all_nil,
    Bool.and_true, hasAll, List.contains_eq_mem]
  generalize decide ("filename" ∈ fields) = a
  by_cases h0 : a = true
  swap
  · simp only [Bool.not_eq_true] at h0
    simp [h0]
  subst h0
  simp only [Bool.not_true, Bool.false_eq_true, if_false, Bool.true_and]
  generalize decide ("x" ∈ fields) = x1
  generalize decide ("y" ∈ fields) = x2
  generalize decide ("z" ∈ fields) = x3
  generalize decide ("latitude" ∈ fields) = l1
  generalize decide ("longitude" ∈ fields) = l2
  generalize decide ("altitude" ∈ fields) = l3
  generalize decide ("omega" ∈ fields) = o1
  generalize decide ("phi" ∈ fields) = o2
  generalize decide ("kappa" ∈ fields) = o3
  generalize decide ("roll" ∈ fields) = r1
  generalize decide ("pitch" ∈ fields) = r2
  generalize decide ("yaw" ∈ fields) = r3
  have hx : (x1 && (x2 && (x3 && (o1 && (o2 && o3))))) = ((x1 && (x2 && x3)) && (o1 && (o2 && o3))) := by
    cases x1 <;> cases x2 <;> cases x3 <;> rfl
  have hx' : (x1 && (x2 && (x3 && (r1 && (r2 && r3))))) = ((x1 && (x2 && x3)) && (r1 && (r2 && r3))) := by
    cases x1 <;> cases x2 <;> cases x3 <;> rfl
  have hl : (l1 && (l2 && (l3 && (o1 && (o2 && o3))))) = ((l1 && (l2 && l3)) && (o1 && (o2 && o3))) := by
    cases l1 <;> cases l2 <;> cases l3 <;> rfl
  have hl' : (l1 && (l2 && (l3 && (r1 && (r2 && r3))))) = ((l1 && (l2 && l3)) && (r1 && (r2 && r3))) := by
    cases l1 <;> cases l2 <;> cases l3 <;> rfl
  rw [hx, hx', hl, hl']
  generalize (x1 && (x2 && x3)) = xyz
  generalize (l1 && (l2 && l3)) = lla
  generalize (o1 && (o2 && o3)) = opk
  generalize (r1 && (r2 && r3)) = rpy
  cases xyz <;> cases lla <;> cases opk <;> cases rpy <;> rfl

/-- C25: the format depends only on which field names are present. -/
theorem C25_set_only (fields fields' : List String) (h : ∀ n, n ∈ fields ↔ n ∈ fields') :
    parseFieldnames fields = parseFieldnames fields' := by
  rw [C25_format, C25_format]
  simp only [h]

/-- C25: an accepted file has all the fields that its format needs. -/
theorem C25_needs (norm : String → String) (user header : Option (List String)) (fields : List String)
    (fmt : CsvFormat) (h : parseFile norm user header = .ok (fields, fmt)) : ∀ n ∈ fmt.needs, n ∈ fields := by
  unfold parseFile at h
  simp only at h
  generalize (fileFields user header).map norm = l at h
  cases hp : parseFieldnames l with
  | error e => rw [hp] at h; exact absurd h (by simp)
  | ok f =>
    rw [hp] at h
    simp only [Except.ok.injEq, Prod.mk.injEq] at h
    obtain ⟨rfl, rfl⟩ := h
    rw [C25_format] at hp
    cases hf : CsvFormat.all.find? fun f => f.needs.all fun n => decide (n ∈ l) with
    | none => rw [hf] at hp; exact absurd hp (by simp)
    | some g =>
      rw [hf] at hp
      simp only [Except.ok.injEq] at hp
      subst hp
      have := List.find?_some hf
      simpa using this

/-- C25: the fields of a file are those of the user if there are any, else those of the header, else the legacy
ones, all normalised by `strip` and `lower`; the format is that of these fields. -/
theorem C25_fields (norm : String → String) (user header : Option (List String)) (fields : List String)
    (fmt : CsvFormat) (h : parseFile norm user header = .ok (fields, fmt)) :
    (∀ u, user = some u → u ≠ [] → fields = u.map norm) ∧
    (∀ l, (user = none ∨ user = some []) → header = some l → fields = l.map norm) ∧
    ((user = none ∨ user = some []) → header = none →
      fields = ["filename", "x", "y", "z", "omega", "phi", "kappa"].map norm) ∧
    parseFieldnames fields = .ok fmt := by
  unfold parseFile at h
  simp only at h
  cases hp : parseFieldnames ((fileFields user header).map norm) with
  | error e => rw [hp] at h; exact absurd h (by simp)
  | ok f =>
    rw [hp] at h
    simp only [Except.ok.injEq, Prod.mk.injEq] at h
    obtain ⟨rfl, rfl⟩ := h
    refine ⟨?_, ?_, ?_, hp⟩
    · rintro u rfl hu
      cases u with
      | nil => exact absurd rfl hu
      | cons a l => rfl
    · rintro l (rfl | rfl) rfl <;> rfl
    · rintro (rfl | rfl) rfl <;> rfl

/-- C25: the CRS is the one of the user if there is one; else that of the `.prj` file for projected positions,
which must be readable and projected; else, for geographic positions with roll, pitch and yaw, the UTM CRS of
the mean position.  Without any of them `CrsMissingError` is raised, except for projected positions with OPK
angles. -/
theorem C25_crs_source {C : Type} (norm : String → String) (user header : Option (List String))
    (crs : Option C) (prj : Prj C) (utm : Res C) (fields : List String) (fmt : CsvFormat)
    (h : parseFile norm user header = .ok (fields, fmt)) :
    (∀ c, crs = some c → csvInit norm user header crs prj utm = .ok (fields, fmt, some c)) ∧
    (crs = none →
      (fmt = .xyzOpk ∨ fmt = .xyzRpy →
        (∀ c, prj = .crs c true → csvInit norm user header crs prj utm = .ok (fields, fmt, some c)) ∧
        (∀ c, prj = .crs c false → csvInit norm user header crs prj utm = .error .paramError) ∧
        (prj = .bad → csvInit norm user header crs prj utm = .error .paramError) ∧
        (prj = .missing ∨ prj = .unknown → csvInit norm user header crs prj utm =
          if fmt = .xyzOpk then .ok (fields, fmt, none) else .error .crsMissingError)) ∧
      (fmt = .llaRpy →
        (∀ c, utm = .ok c → csvInit norm user header crs prj utm = .ok (fields, fmt, some c)) ∧
        (∀ e, utm = .error e → csvInit norm user header crs prj utm = .error e)) ∧
      (fmt = .llaOpk → csvInit norm user header crs prj utm = .error .crsMissingError)) := by
  unfold csvInit
  rw [h]
  refine ⟨?_, ?_⟩
  · rintro c rfl; rfl
  · rintro rfl
    refine ⟨?_, ?_, ?_⟩
    · rintro (rfl | rfl)
      · refine ⟨?_, ?_, ?_, ?_⟩
        · rintro c rfl; rfl
        · rintro c rfl; rfl
        · rintro rfl; rfl
        · rintro (rfl | rfl) <;> rfl
      · refine ⟨?_, ?_, ?_, ?_⟩
        · rintro c rfl; rfl
        · rintro c rfl; rfl
        · rintro rfl; rfl
        · rintro (rfl | rfl) <;> rfl
    · rintro rfl
      exact ⟨by rintro c rfl; rfl, by rintro e rfl; rfl⟩
    · rintro rfl; rfl

example : parseFile id (none : Option (List String)) (some ["filename", "x", "y", "z", "roll", "pitch", "yaw"]) =
    .ok (["filename", "x", "y", "z", "roll", "pitch", "yaw"], .xyzRpy) := by decide +kernel

/-- C25: an accepted file has a CRS, unless it has projected positions and OPK angles, which do not need
one. -/
theorem C25_crs {C : Type} (norm : String → String) (user header : Option (List String)) (crs : Option C)
    (prj : Prj C) (utm : Res C) (fields : List String) (fmt : CsvFormat) (c : Option C)
    (h : csvInit norm user header crs prj utm = .ok (fields, fmt, c)) :
    c.isSome ∨ (fmt = .xyzOpk ∧ crs = none) := by
  unfold csvInit at h
  cases hp : parseFile norm user header with
  | error e => rw [hp] at h; exact absurd h (by simp)
  | ok p =>
    obtain ⟨fs, f⟩ := p
    rw [hp] at h
    cases crs with
    | some c' =>
      simp only [Except.ok.injEq, Prod.mk.injEq] at h
      left; simp [← h.2.2]
    | none =>
      simp only at h
      cases hc : csvCrs f prj utm with
      | error e => rw [hc] at h; exact absurd h (by simp)
      | ok c' =>
        rw [hc] at h
        simp only [Except.ok.injEq, Prod.mk.injEq] at h
        obtain ⟨-, rfl, rfl⟩ := h
        cases f with
        | xyzOpk => exact Or.inr ⟨rfl, rfl⟩
        | xyzRpy =>
          left
          cases c' with
          | some x => rfl
          | none =>
            simp only [csvCrs] at hc
            cases prj with
            | unknown => simp at hc
            | missing => simp at hc
            | bad => simp at hc
            | crs x p => cases p <;> simp at hc
        | llaOpk => simp [csvCrs] at hc
        | llaRpy =>
          left
          cases utm with
          | error e => simp [csvCrs] at hc
          | ok x => simp only [csvCrs, Except.ok.injEq] at hc; rw [← hc]; rfl

theorem convertRow_get {parse : String → Option K} {row : Dict String (Option String)} {r : Dict String (Cell K)}
    (h : convertRow parse row = .ok r) {k : String} (hk : k ∈ floatFields) (hrow : k ∈ row.map Prod.fst) :
    ∃ s x, Dict.get? row k = some (some s) ∧ parse s = some x ∧ Dict.get? r k = some (.flt x) := by
  induction row generalizing r with
  | nil => simp at hrow
  | cons p row ih =>
    obtain ⟨k', v⟩ := p
    unfold convertRow at h
    split_ifs at h with h1
    · cases hc : convertCell parse k' v with
      | error e => rw [hc] at h; exact absurd h (by simp)
      | ok c =>
        rw [hc] at h
        simp only at h
        cases hr : convertRow parse row with
        | error e => rw [hr] at h; exact absurd h (by simp)
        | ok r' =>
          rw [hr] at h
          simp only [Except.ok.injEq] at h
          subst h
          by_cases hkk : k' = k
          · subst hkk
            simp only [Dict.get?_cons, if_true]
            unfold convertCell at hc
            rw [if_pos hk] at hc
            cases v with
            | none => exact absurd hc (by simp)
            | some s =>
              simp only at hc
              cases hs : parse s with
              | none => rw [hs] at hc; exact absurd hc (by simp)
              | some x =>
                rw [hs] at hc
                simp only [Except.ok.injEq] at hc
                exact ⟨s, x, rfl, hs, by rw [hc]⟩
          · simp only [Dict.get?_cons, if_neg hkk]
            refine ih hr ?_
            simpa [Ne.symm hkk] using hrow
    · have hkk : k' ≠ k := by rintro rfl; exact h1 (Or.inl hk)
      simp only [Dict.get?_cons, if_neg hkk]
      refine ih h ?_
      simpa [Ne.symm hkk] using hrow

theorem convertRow_error {parse : String → Option K} {row : Dict String (Option String)} {e : PyErr}
    (h : convertRow parse row = .error e) : e = .typeError ∨ e = .valueError := by
  induction row with
  | nil => simp [convertRow] at h
  | cons p row ih =>
    obtain ⟨k, v⟩ := p
    unfold convertRow at h
    split_ifs at h with h1
    · cases hc : convertCell parse k v with
      | error e' =>
        rw [hc] at h
        simp only [Except.error.injEq] at h
        subst h
        unfold convertCell at hc
        split_ifs at hc
        · cases v with
          | none => simp only [Except.error.injEq] at hc; exact Or.inl hc.symm
          | some s =>
            simp only at hc
            cases hs : parse s with
            | none => rw [hs] at hc; simp only [Except.error.injEq] at hc; exact Or.inr hc.symm
            | some x => rw [hs] at hc; exact absurd hc (by simp)
        · cases v <;> simp at hc
      | ok c =>
        rw [hc] at h
        simp only at h
        cases hr : convertRow parse row with
        | error e' =>
          rw [hr] at h
          simp only [Except.error.injEq] at h
          subst h
          exact ih hr
        | ok r' => rw [hr] at h; exact absurd h (by simp)
    · exact ih h

/-- The number in a field of a row. -/
def Num (parse : String → Option K) (row : Dict String (Option String)) (k : String) (x : K) : Prop :=
  ∃ s, Dict.get? row k = some (some s) ∧ parse s = some x

theorem cell3_ok {parse : String → Option K} {row : Dict String (Option String)} {r : Dict String (Cell K)}
    (h : convertRow parse row = .ok r) {a b c : String} (ha : a ∈ floatFields) (hb : b ∈ floatFields)
    (hc : c ∈ floatFields) (hra : a ∈ row.map Prod.fst) (hrb : b ∈ row.map Prod.fst)
    (hrc : c ∈ row.map Prod.fst) :
    ∃ x y z, cell3 r a b c = .ok (x, y, z) ∧ Num parse row a x ∧ Num parse row b y ∧ Num parse row c z := by
  obtain ⟨s1, x, h1, h2, h3⟩ := convertRow_get h ha hra
  obtain ⟨s2, y, h4, h5, h6⟩ := convertRow_get h hb hrb
  obtain ⟨s3, z, h7, h8, h9⟩ := convertRow_get h hc hrc
  refine ⟨x, y, z, ?_, ⟨s1, h1, h2⟩, ⟨s2, h4, h5⟩, ⟨s3, h7, h8⟩⟩
  simp [cell3, cell, h3, h6, h9]

/-- C25: for a row with the fields that the format needs, no field is missing when the row is converted: the
position and the orientation are made from the numbers in the fields of the format, or the row has a value that
is missing or not a number. -/
theorem C25_rows (parse : String → Option K) (cv : Conv K) (fmt : CsvFormat) (radians : Bool)
    (row : Dict String (Option String)) (hrow : ∀ n ∈ fmt.needs, n ∈ row.map Prod.fst) :
    (∃ px py pz ox oy oz xyz opk,
      (if fmt.isXyz then Num parse row "x" px ∧ Num parse row "y" py ∧ Num parse row "z" pz ∧ xyz = (px, py, pz)
        else Num parse row "latitude" px ∧ Num parse row "longitude" py ∧ Num parse row "altitude" pz ∧
          xyz = cv.toXyz (px, py, pz)) ∧
      (if fmt.isOpk then Num parse row "omega" ox ∧ Num parse row "phi" oy ∧ Num parse row "kappa" oz ∧
          opk = (if radians then (ox, oy, oz) else cv.radians (ox, oy, oz))
        else Num parse row "roll" ox ∧ Num parse row "pitch" oy ∧ Num parse row "yaw" oz ∧
          opk = cv.rpyToOpk (if radians then (ox, oy, oz) else cv.radians (ox, oy, oz))
            (if fmt.isXyz then cv.toLla (px, py, pz) else (px, py, pz))) ∧
      readRow parse cv fmt radians row = .ok (xyz, opk)) ∨
    readRow parse cv fmt radians row = .error .typeError ∨
    readRow parse cv fmt radians row = .error .valueError := by
  unfold readRow
  cases hr : convertRow parse row with
  | error e =>
    right
    rcases convertRow_error hr with rfl | rfl
    · exact Or.inl rfl
    · exact Or.inr rfl
  | ok r =>
    left
    have key : ∀ a b c, a ∈ floatFields → b ∈ floatFields → c ∈ floatFields → a ∈ fmt.needs → b ∈ fmt.needs →
        c ∈ fmt.needs → ∃ x y z, cell3 r a b c = .ok (x, y, z) ∧ Num parse row a x ∧ Num parse row b y ∧
          Num parse row c z := by
      intro a b c h1 h2 h3 h4 h5 h6
      exact cell3_ok hr h1 h2 h3 (hrow a h4) (hrow b h5) (hrow c h6)
    unfold convert
    cases fmt with
    | xyzOpk =>
      obtain ⟨x, y, z, h1, h2, h3, h4⟩ := key "x" "y" "z" (by decide) (by decide) (by decide) (by decide) (by decide) (by decide)
      obtain ⟨o, p, k, h5, h6, h7, h8⟩ := key "omega" "phi" "kappa" (by decide) (by decide) (by decide) (by decide) (by decide) (by decide)
      exact ⟨x, y, z, o, p, k, _, _, ⟨h2, h3, h4, rfl⟩, ⟨h6, h7, h8, rfl⟩, by simp [CsvFormat.isXyz, CsvFormat.isOpk, h1, h5]⟩
    | xyzRpy =>
      obtain ⟨x, y, z, h1, h2, h3, h4⟩ := key "x" "y" "z" (by decide) (by decide) (by decide) (by decide) (by decide) (by decide)
      obtain ⟨o, p, k, h5, h6, h7, h8⟩ := key "roll" "pitch" "yaw" (by decide) (by decide) (by decide) (by decide) (by decide) (by decide)
      exact ⟨x, y, z, o, p, k, _, _, ⟨h2, h3, h4, rfl⟩, ⟨h6, h7, h8, rfl⟩, by simp [CsvFormat.isXyz, CsvFormat.isOpk, h1, h5]⟩
    | llaOpk =>
      obtain ⟨x, y, z, h1, h2, h3, h4⟩ := key "latitude" "longitude" "altitude" (by decide) (by decide) (by decide) (by decide) (by decide) (by decide)
      obtain ⟨o, p, k, h5, h6, h7, h8⟩ := key "omega" "phi" "kappa" (by decide) (by decide) (by decide) (by decide) (by decide) (by decide)
      exact ⟨x, y, z, o, p, k, _, _, ⟨h2, h3, h4, rfl⟩, ⟨h6, h7, h8, rfl⟩, by simp [CsvFormat.isXyz, CsvFormat.isOpk, h1, h5]⟩
    | llaRpy =>
      obtain ⟨x, y, z, h1, h2, h3, h4⟩ := key "latitude" "longitude" "altitude" (by decide) (by decide) (by decide) (by decide) (by decide) (by decide)
      obtain ⟨o, p, k, h5, h6, h7, h8⟩ := key "roll" "pitch" "yaw" (by decide) (by decide) (by decide) (by decide) (by decide) (by decide)
      exact ⟨x, y, z, o, p, k, _, _, ⟨h2, h3, h4, rfl⟩, ⟨h6, h7, h8, rfl⟩, by simp [CsvFormat.isXyz, CsvFormat.isOpk, h1, h5]⟩

theorem keys_update {κ α : Type} [DecidableEq κ] (d : Dict κ α) (l : List (κ × α)) (k : κ) :
    k ∈ (Dict.update d l).map Prod.fst ↔ k ∈ d.map Prod.fst ∨ k ∈ l.map Prod.fst := by
  unfold Dict.update
  induction l generalizing d with
  | nil => simp
  | cons p l ih =>
    rw [List.foldl_cons, ih, Dict.keys_set, List.map_cons, List.mem_cons]
    by_cases h : p.1 ∈ d.map Prod.fst
    · rw [if_pos h]
      constructor
      · rintro (h1 | h1)
        · exact Or.inl h1
        · exact Or.inr (Or.inr h1)
      · rintro (h1 | h1 | h1)
        · exact Or.inl h1
        · exact Or.inl (h1 ▸ h)
        · exact Or.inr h1
    · rw [if_neg h, List.mem_append, List.mem_singleton]
      tauto

/-- Rows from `csv.DictReader` have all fields of the file, whatever values they have. -/
theorem C25_row_fields (fields vals : List String) : ∀ n ∈ fields, n ∈ (mkRow fields vals).map Prod.fst := by
  intro n hn
  unfold mkRow Dict.ofItems
  rw [keys_update, List.map_fst_zip]
  · exact Or.inr hn
  · simp; omega

theorem readCsv_ok {name : String → String} {parse : String → Option K} {cv : Conv K} {fmt : CsvFormat}
    {radians : Bool} {rows : List (Dict String (Option String))} {acc d : Dict String (CsvExt K)}
    (h : readCsv name parse cv fmt radians rows acc = .ok d) :
    ∃ out : List (String × CsvExt K), d = Dict.update acc out ∧
      List.Forall₂ (fun row o => ∃ s, Dict.get? row "filename" = some (some s) ∧ o.1 = name s ∧
        readRow parse cv fmt radians row = .ok (o.2.xyz, o.2.opk) ∧ o.2.camera = rowCamera parse row) rows out := by
  induction rows generalizing acc with
  | nil =>
    simp only [readCsv, Except.ok.injEq] at h
    exact ⟨[], h.symm, .nil⟩
  | cons row rows ih =>
    unfold readCsv at h
    cases hf : Dict.get? row "filename" with
    | none => rw [hf] at h; exact absurd h (by simp)
    | some v =>
      rw [hf] at h
      cases v with
      | none => exact absurd h (by simp)
      | some s =>
        simp only at h
        cases hr : readRow parse cv fmt radians row with
        | error e => rw [hr] at h; exact absurd h (by simp)
        | ok p =>
          obtain ⟨xyz, opk⟩ := p
          rw [hr] at h
          simp only at h
          obtain ⟨out, rfl, hout⟩ := ih h
          exact ⟨(name s, ⟨xyz, opk, rowCamera parse row⟩) :: out, rfl, .cons ⟨s, hf, rfl, hr, rfl⟩ hout⟩

theorem convertRow_camera {parse : String → Option K} {row : Dict String (Option String)} {r : Dict String (Cell K)}
    (h : convertRow parse row = .ok r) (c : String) : (match Dict.get? r "camera" with
      | some (.str s) => some s
      | _ => none) = some c ↔ Dict.get? row "camera" = some (some c) := by
  induction row generalizing r with
  | nil =>
    simp only [convertRow, Except.ok.injEq] at h
    subst h
    simp [Dict.get?]
  | cons p row ih =>
    obtain ⟨k, v⟩ := p
    unfold convertRow at h
    by_cases hk : k = "camera"
    · subst hk
      rw [if_pos (Or.inr (Or.inr rfl))] at h
      cases v with
      | none =>
        cases hr : convertRow parse row with
        | error e => rw [hr] at h; simp [convertCell, floatFields] at h
        | ok r' =>
          rw [hr] at h
          simp only [convertCell, floatFields] at h
          obtain rfl := Except.ok.inj h
          simp [Dict.get?]
      | some s =>
        cases hr : convertRow parse row with
        | error e => rw [hr] at h; simp [convertCell, floatFields] at h
        | ok r' =>
          rw [hr] at h
          simp only [convertCell, floatFields] at h
          obtain rfl := Except.ok.inj h
          simp [Dict.get?]
    · have hrow : Dict.get? ((k, v) :: row) "camera" = Dict.get? row "camera" := by simp [Dict.get?, hk]
      rw [hrow]
      split_ifs at h
      · cases hc : convertCell parse k v with
        | error e => rw [hc] at h; cases h
        | ok x =>
          rw [hc] at h
          cases hr : convertRow parse row with
          | error e => rw [hr] at h; cases h
          | ok r' =>
            rw [hr] at h
            obtain rfl := Except.ok.inj h
            have hr' : Dict.get? ((k, x) :: r') "camera" = Dict.get? r' "camera" := by simp [Dict.get?, hk]
            rw [hr']
            exact ih hr
      · exact ih h

/-- C25: when the file is read and the file names of its rows are different, there is one entry for each row,
in the order of the rows, under its file name, made from that row. -/
theorem C25_read (name : String → String) (parse : String → Option K) (cv : Conv K) (fmt : CsvFormat)
    (radians : Bool) (rows : List (Dict String (Option String))) (d : Dict String (CsvExt K))
    (h : readCsv name parse cv fmt radians rows [] = .ok d)
    (hnames : (rows.map fun r => (Dict.get? r "filename").map (Option.map name)).Nodup) :
    List.Forall₂ (fun row o => ∃ s, Dict.get? row "filename" = some (some s) ∧ o.1 = name s ∧
        readRow parse cv fmt radians row = .ok (o.2.xyz, o.2.opk) ∧
        (∀ c, o.2.camera = some c ↔ Dict.get? row "camera" = some (some c))) rows d := by
  obtain ⟨out, rfl, hout⟩ := readCsv_ok h
  have hk : out.map (fun o => some (some o.1)) = rows.map fun r => (Dict.get? r "filename").map (Option.map name) := by
    clear h hnames
    induction hout with
    | nil => rfl
    | cons h _ ih =>
      obtain ⟨s, h1, h2, -⟩ := h
      simp [h1, h2, ih]
  rw [← hk] at hnames
  have hn : Dict.Ok out := by
    have : (out.map fun o => some (some o.1)) = (out.map Prod.fst).map fun n => some (some n) := by simp
    rw [this] at hnames
    exact hnames.of_map _
  have : Dict.update [] out = out := Dict.ofItems_ok hn
  rw [this]
  refine hout.imp ?_
  rintro row o ⟨s, h1, h2, h3, h4⟩
  refine ⟨s, h1, h2, h3, fun c => ?_⟩
  rw [h4]
  unfold readRow at h3
  unfold rowCamera
  cases hr : convertRow parse row with
  | error e => rw [hr] at h3; cases h3
  | ok r => exact convertRow_camera hr c

/-- C25: rows for files with the same name in different directories: the last row is kept, without an error. -/
theorem C25_same_name_fails (parse : String → Option K) (cv : Conv K) (x y : K) (h1 : parse "1" = some x)
    (h2 : parse "2" = some y) :
    readCsv (fun s => if s = "a/i" ∨ s = "b/i" then "i" else s) parse cv .xyzOpk true
      [mkRow legacyFields ["a/i", "1", "1", "1", "1", "1", "1"],
       mkRow legacyFields ["b/i", "2", "2", "2", "2", "2", "2"]] [] =
      .ok [("i", ⟨(y, y, y), (y, y, y), none⟩)] := by
  simp [readCsv, readRow, mkRow, legacyFields, Dict.ofItems, Dict.update, Dict.set, convertRow, convertCell,
    floatFields, h1, h2, convert, CsvFormat.isXyz, CsvFormat.isOpk, cell3, cell, Dict.get?, rowCamera]

/-- C25: a value that is not a number in a field that the format does not use makes the file unreadable with
`ValueError`, and a row with too few values gives `TypeError`: not `ParamError`. -/
theorem C25_bad_rows_fails (parse : String → Option K) (cv : Conv K) (hp : parse "" = none) (x : K)
    (h1 : parse "1" = some x) :
    parseFieldnames ["filename", "x", "y", "z", "omega", "phi", "kappa", "roll"] = .ok .xyzOpk ∧
    readRow parse cv .xyzOpk false
      (mkRow ["filename", "x", "y", "z", "omega", "phi", "kappa", "roll"] ["a", "1", "1", "1", "1", "1", "1", ""]) =
      .error .valueError ∧
    readRow parse cv .xyzOpk false
      (mkRow ["filename", "x", "y", "z", "omega", "phi", "kappa"] ["a", "1", "1", "1", "1", "1"]) =
      .error .typeError ∧
    ∀ name, readCsv name parse cv .xyzOpk false
      [mkRow ["x", "y", "z", "omega", "phi", "kappa", "filename"] ["1", "1", "1", "1", "1", "1"]] [] = .error .typeError := by
  refine ⟨rfl, ?_, ?_, fun name => ?_⟩
  · simp [readRow, mkRow, Dict.ofItems, Dict.update, Dict.set, convertRow, convertCell, floatFields, hp, h1]
  · simp [readRow, mkRow, Dict.ofItems, Dict.update, Dict.set, convertRow, convertCell, floatFields, h1]
  · simp [readCsv, mkRow, Dict.ofItems, Dict.update, Dict.set, Dict.get?]

example (parse : String → Option K) (cv : Conv K) (x : K) (h1 : parse "1" = some x) :
    readRow parse cv .llaOpk true
      (mkRow ["filename", "latitude", "longitude", "altitude", "omega", "phi", "kappa"] ["a", "1", "1", "1", "1", "1", "1"]) =
      .ok (cv.toXyz (x, x, x), (x, x, x)) := by
  simp [readRow, mkRow, Dict.ofItems, Dict.update, Dict.set, convertRow, convertCell, floatFields, h1, convert,
    CsvFormat.isXyz, CsvFormat.isOpk, cell3, cell, Dict.get?]

end Verif.Readers
