import Verif.Base.Err
import Verif.Base.Dict
import Mathlib.Algebra.Order.Field.Basic

/-!
# Command line interface

Model of the option callbacks and batch loops of orthority/cli.py.
-/

set_option autoImplicit false

namespace Verif.Cli

/-! ## Option callbacks -/

section
variable {K : Type}

/-- orthority/cli.py:210-218 `_resolution_cb`. -/
def resolutionCb (res : List K) : Res (List K) :=
  match res with
  | [r] => .ok [r, r]
  | [] => .ok []
  | [a, b] => .ok [a, b]
  | _ => .error .badParameter

/-- orthority/cli.py:284-291 `_weights_cb`; weights that are NaN are `none`. -/
def weightsCb [Field K] [LinearOrder K] (w : Option (List (Option K))) : Res (Option (List (Option K))) :=
  match w with
  | none => .ok none
  | some l => if l.any (fun x => match x with | some x => decide (x < 0) | none => false) then .error .badParameter else .ok (some l)

end

/-- `str.lower`, for ASCII text. -/
def lower (s : List Char) : List Char := s.map Char.toLower

/-- `str.strip`, for ASCII white space. -/
def stripWs (s : List Char) : List Char := ((s.dropWhile Char.isWhitespace).reverse.dropWhile Char.isWhitespace).reverse

/-- `pair.split('=', 1)`, when there is a `=`. -/
def splitEq : List Char → Option (List Char × List Char)
  | [] => none
  | c :: cs => if c = '=' then some ([], cs) else match splitEq cs with
    | none => none
    | some (k, v) => some (c :: k, v)

/-- A creation option value, orthority/cli.py:255: python `None`, or what YAML gives.  A YAML error is not a click error: it
is modelled as a ValueError. -/
def optValue {V : Type} (yaml : List Char → Option V) (v : List Char) : Res (Option V) :=
  if v = "none".toList ∨ v = "null".toList ∨ v = "nil".toList then .ok none
  else match yaml v with
    | some x => .ok (some x)
    | none => .error .valueError

/-- The loop of orthority/cli.py:248-256. -/
def creationLoop {V : Type} (yaml : List Char → Option V) (d : Dict (List Char) (Option V)) :
    List (List Char) → Res (Dict (List Char) (Option V))
  | [] => .ok d
  | p :: ps => match splitEq p with
    | none => .error .badParameter
    | some (k, v) => do
      let x ← optValue yaml (stripWs (lower v))
      creationLoop yaml (d.set (stripWs (lower k)) x) ps

/-- orthority/cli.py:239-256 `_creation_option_cb`. -/
def creationCb {V : Type} (yaml : List Char → Option V) (value : List (List Char)) : Res (Dict (List Char) (Option V)) :=
  creationLoop yaml [] value

/-- Band checks, orthority/cli.py:334-339 and 1187-1192. -/
def checkBand (band : ℤ) (count : ℕ) : Res Unit :=
  if band ≤ 0 ∨ band > count then .error .badParameter else .ok ()

/-- Multispectral band checks, orthority/cli.py:1194-1202. -/
def checkBands (bands : List ℤ) (count : ℕ) : Res Unit :=
  if 0 < (bands.filter fun b : ℤ => decide (b ≤ 0 ∨ b > (count : ℤ))).length then .error .badParameter else .ok ()

/-! ## Batches -/

section
variable {C Im : Type}

/-- A source image: identity, file name without suffix, CRS in its metadata, and the results of `cameras.get` and of opening
the file. -/
structure Src (C Im : Type) where
  im : Im
  stem : String
  crs : Option C
  cam : Res Unit
  opened : Res Unit

/-- The file at a path: a complete ortho of an image in a CRS, an incomplete one, or some other file. -/
inductive Out (C Im : Type)
  | done (im : Im) (crs : C)
  | broken
  | other
  deriving DecidableEq

/-- What `Ortho(...)` and `Ortho.process` do: finish, raise before opening the output, or raise after opening it. -/
inductive Proc
  | done
  | raised (e : PyErr)
  | aborted (e : PyErr)

/-- Files by path. -/
abbrev Fs (C Im : Type) := String → Option (Out C Im)

/-- The path of an ortho image, orthority/cli.py:361-367. -/
def orthoPath (outDir stem : String) : String := outDir ++ "/" ++ (stem ++ "_ORTHO.tif")

/-- `OrthorityError` and its subclasses, orthority/errors.py:15-28; `CameraInitError` (31) is not one of them. -/
def isOrthority : PyErr → Bool
  | .orthorityError | .paramError | .crsMissingError | .crsError => true
  | _ => false

/-- orthority/cli.py:371-372: which exceptions become usage errors. -/
def usage (e : PyErr) : PyErr := if e = .fileExistsError ∨ isOrthority e then .clickException else e

/-- One image of the loop, orthority/cli.py:341-372.  The CRS is the variable `crs`, whose value is returned.  `FileExistsError`
is raised for an existing file without `--overwrite` (orthority/common.py:312). -/
def orthoOne (proc : Im → C → Proc) (outDir : String) (overwrite : Bool) (crs : Option C) (fs : Fs C Im) (s : Src C Im) :
    Fs C Im × Res (Option C) :=
  match s.cam with
  | .error e => (fs, .error (if isOrthority e then .clickException else e))
  | .ok () => match s.opened with
    | .error e => (fs, .error (if e = .fileNotFoundError then .badParameter else e))
    | .ok () =>
      let crs := crs <|> s.crs
      match crs with
      | none => (fs, .error .missingParameter)
      | some c =>
        let p := orthoPath outDir s.stem
        match proc s.im c with
        | .raised e => (fs, .error (usage e))
        | r =>
          if (fs p).isSome ∧ overwrite = false then (fs, .error (usage .fileExistsError))
          else match r with
            | .done => ((fun q => if q = p then some (.done s.im c) else fs q), .ok (some c))
            | .aborted e | .raised e => ((fun q => if q = p then some .broken else fs q), .error (usage e))

/-- The loop of orthority/cli.py:341-372. -/
def orthoLoop (proc : Im → C → Proc) (outDir : String) (overwrite : Bool) (crs : Option C) (fs : Fs C Im) :
    List (Src C Im) → Fs C Im × Res Unit
  | [] => (fs, .ok ())
  | s :: ss => match orthoOne proc outDir overwrite crs fs s with
    | (fs, .error e) => (fs, .error e)
    | (fs, .ok crs) => orthoLoop proc outDir overwrite crs fs ss

/-- The part of orthority/cli.py:294-372 `_ortho` after the export of parameters and opening the DEM; `crs` is the option, or the
CRS of the camera factory. -/
def ortho (proc : Im → C → Proc) (outDir : String) (overwrite : Bool) (crs : Option C) (band : ℤ) (count : ℕ) (fs : Fs C Im)
    (srcs : List (Src C Im)) : Fs C Im × Res Unit :=
  match checkBand band count with
  | .error e => (fs, .error e)
  | .ok () => orthoLoop proc outDir overwrite crs fs srcs

end

/-- Output paths of the legacy command, orthority/cli.py:1332-1344: directory and stem of each image, and the variable
`ortho_dir`. -/
def simplePaths (orthoDir : Option String) : List (String × String) → List String
  | [] => []
  | (parent, stem) :: l =>
    let d := match orthoDir with
      | none => parent
      | some d => if d = "" then parent else d
    orthoPath d stem :: simplePaths (some d) l

end Verif.Cli
