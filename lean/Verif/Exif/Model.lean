import Verif.Base.Err
import Verif.Base.Dict
import Mathlib.Algebra.Order.Floor.Ring
import Mathlib.Algebra.Order.Floor.Defs

/-!
# EXIF and XMP tags

Model of orthority/exif.py and of the EXIF part of orthority/param_io.py (132-207 and 1266-1362).  Tag text is a list of
characters.  Python's `float(str)` and `int(str)` are parameters that may fail; numbers are finite elements of an ordered
field, so rounding, inf and NaN are not modelled.
-/

set_option autoImplicit false
set_option linter.unusedSectionVars false

namespace Verif.Exif

/-! ## Text -/

/-- `s.split(c)` for one character `c`. -/
def splitCh (c : Char) : List Char → List (List Char)
  | [] => [[]]
  | x :: xs =>
    if x = c then [] :: splitCh c xs
    else match splitCh c xs with
      | [] => [[x]]
      | h :: t => (x :: h) :: t

/-- `s.strip(chars)`. -/
def strip (cs : List Char) (s : List Char) : List Char :=
  ((s.dropWhile fun c => decide (c ∈ cs)).reverse.dropWhile fun c => decide (c ∈ cs)).reverse

/-- Python's number parsers: `float(s)`, `int(s)` and `int(s, 0)`; `none` is a ValueError. -/
structure Parse (K : Type) where
  flt : List Char → Option K
  int10 : List Char → Option ℤ
  int0 : List Char → Option ℤ

/-- A parser's result as a python result. -/
def orValueError {α : Type} : Option α → Res α
  | some a => .ok a
  | none => .error .valueError

/-- `[f(x) for x in l]`. -/
def mapRes {α β : Type} (f : α → Res β) : List α → Res (List β)
  | [] => .ok []
  | x :: xs => do
    let y ← f x
    let ys ← mapRes f xs
    pure (y :: ys)

/-- A tag dictionary (`ds.tags()`). -/
abbrev Tags := Dict String (List Char)

/-- A numeric tag: one number, or a tuple of numbers. -/
inductive EV (K : Type)
  | one (x : K)
  | many (l : List K)
  deriving DecidableEq

section
variable {K : Type} [Field K] [LinearOrder K] [IsStrictOrderedRing K] [FloorRing K]

/-- Truth value of a numeric tag. -/
def EV.truthy : EV K → Bool
  | .one x => decide (x ≠ 0)
  | .many l => !l.isEmpty

/-- Truth value of an optional numeric tag. -/
def truthy : Option (EV K) → Bool
  | none => false
  | some v => v.truthy

/-- The numbers in the text of a tag, orthority/exif.py:228-230. -/
def exifNums (ps : Parse K) (s : List Char) : Res (List K) :=
  mapRes (fun v => orValueError (ps.flt (strip [' ', '('] v))) ((splitCh ')' s).filter fun v => decide (0 < v.length))

/-- orthority/exif.py:224-231 `_get_exif_float`. -/
def exifFloat (ps : Parse K) (d : Tags) (key : String) : Res (Option (EV K)) :=
  match d.get? key with
  | none => .ok none
  | some s => do
    let l ← exifNums ps s
    match l with
    | [x] => pure (some (.one x))
    | l => pure (some (.many l))

/-- `int(x)` of a float. -/
def truncInt (x : K) : ℤ := if 0 ≤ x then ⌊x⌋ else ⌈x⌉

/-- `int(v)` of a numeric tag; a tuple is a TypeError. -/
def EV.toInt : EV K → Res ℤ
  | .one x => .ok (truncInt x)
  | .many _ => .error .typeError

/-- orthority/exif.py:247-251 `_get_tag_im_size`. -/
def tagImSize (ps : Parse K) (d : Tags) : Res (Option (ℤ × ℤ)) := do
  let w ← exifFloat ps d "EXIF_PixelXDimension"
  let h ← exifFloat ps d "EXIF_PixelYDimension"
  match w, h with
  | some w, some h =>
    if w.truthy && h.truthy then do
      let w ← w.toInt
      let h ← h.toInt
      pure (some (w, h))
    else pure none
  | _, _ => pure none

/-- `mm_per_unit_dict.get(unit_code)`, orthority/exif.py:269-275. -/
def mmPerUnit (code : ℤ) : Option K :=
  if code = 2 then some (127 / 5)
  else if code = 3 then some 10
  else if code = 4 then some 1
  else if code = 5 then some (1 / 1000)
  else none

/-- orthority/exif.py:254-286 `_get_sensor_size`.  Resolution tags with several values, whose numpy arrays are ragged or two
dimensional, are modelled as a ValueError; the warning for unknown units is not modelled.  The size for a zero resolution is
infinite in numpy and 0 here, so theorems on sizes assume that resolutions are not zero. -/
def sensorSize (ps : Parse K) (d : Tags) (im : ℕ × ℕ) : Res (Option (K × K)) :=
  match d.get? "EXIF_FocalPlaneResolutionUnit", d.get? "EXIF_FocalPlaneXResolution", d.get? "EXIF_FocalPlaneYResolution" with
  | some u, some _, some _ => do
    let code ← orValueError (ps.int10 u)
    match (mmPerUnit code : Option K) with
    | none => pure none
    | some mm => do
      let x ← exifFloat ps d "EXIF_FocalPlaneXResolution"
      let y ← exifFloat ps d "EXIF_FocalPlaneYResolution"
      match x, y with
      | some (.one x), some (.one y) => pure (some (mm * im.1 / x, mm * im.2 / y))
      | _, _ => .error .valueError
  | _, _, _ => .ok none

/-- `v[i]` of a numeric tag. -/
def EV.at (v : EV K) (i : ℕ) : Res K :=
  match v with
  | .one _ => .error .typeError
  | .many l => match l[i]? with
    | some x => .ok x
    | none => .error .indexError

/-- `ref in 'NE'`: a substring test. -/
def inNE (ref : List Char) : Bool := decide (ref <:+: ['N', 'E'])

/-- orthority/exif.py:314-319 `dms_to_decimal`. -/
def dmsToDecimal (dms : EV K) (ref : List Char) : Res K := do
  let s ← dms.at 2
  let m ← dms.at 1
  let d ← dms.at 0
  pure (((s / 60 + m) / 60 + d) * (if inNE ref then 1 else -1))

/-- `v *= -1`; a tuple becomes empty. -/
def EV.neg : EV K → EV K
  | .one x => .one (x * -1)
  | .many _ => .many []

/-- `v or 0.0`. -/
def orZero : Option (EV K) → EV K
  | some v => if v.truthy then v else .one 0
  | none => .one 0

/-- orthority/exif.py:302-330 `_get_lla`. -/
def exifLla (ps : Parse K) (d : Tags) : Res (Option (K × K × EV K)) :=
  match d.get? "EXIF_GPSLatitudeRef", d.get? "EXIF_GPSLongitudeRef", d.get? "EXIF_GPSLatitude", d.get? "EXIF_GPSLongitude" with
  | some latRef, some lonRef, some _, some _ => do
    let lat ← exifFloat ps d "EXIF_GPSLatitude"
    let lat ← dmsToDecimal (lat.getD (.many [])) latRef
    let lon ← exifFloat ps d "EXIF_GPSLongitude"
    let lon ← dmsToDecimal (lon.getD (.many [])) lonRef
    let alt ← exifFloat ps d "EXIF_GPSAltitude"
    let ref ← orValueError (ps.int0 ((d.get? "EXIF_GPSAltitudeRef").getD ['0', 'x', '0', '0']))
    pure (some (lat, lon, if ref = 1 then (orZero alt).neg else orZero alt))
  | _, _, _, _ => .ok none

/-! ## XMP -/

/-- An XML element: tag, text, attributes and child elements, in document order. -/
inductive Xml
  | node (tag : String) (text : Option (List Char)) (attrib : List (String × List Char)) (children : List Xml)

/-- A flat XMP dictionary: element text may be `None`. -/
abbrev Xmp := Dict String (Option (List Char))

mutual
/-- orthority/exif.py:87-95 `traverse_etree`. -/
def traverse (d : Xmp) : Xml → Xmp
  | .node tag text attrib children =>
    traverseAll ((d.set tag text).update (attrib.map fun p => (p.1, some p.2))) children
/-- The loop over child elements, orthority/exif.py:94-95. -/
def traverseAll (d : Xmp) : List Xml → Xmp
  | [] => d
  | x :: xs => traverseAll (traverse d x) xs
end

/-- orthority/exif.py:82-98 `_xml_to_flat_dict`, of a parsed document. -/
def flatDict (x : Xml) : Xmp := traverse [] x

/-- `float(xmp_dict[key])`: a missing key is a KeyError and `None` a TypeError. -/
def xmpFloat (ps : Parse K) (d : Xmp) (key : String) : Res K :=
  match d.get? key with
  | none => .error .keyError
  | some none => .error .typeError
  | some (some s) => orValueError (ps.flt s)

/-- An entry of `_xmp_schemas`. -/
structure XmpSchema (K : Type) where
  llaKeys : List String
  rpyKeys : List String
  dewarpKey : Option String
  offsets : K × K × K
  gains : K × K × K

/-- orthority/exif.py:35-49, the key names. -/
def djiKey (s : String) : String := "{http://www.dji.com/drone-dji/1.0/}" ++ s

/-- `_xmp_schemas`, orthority/exif.py:34-74. -/
def schemas : List (XmpSchema K) :=
  [⟨[djiKey "GpsLatitude", djiKey "GpsLongtitude", djiKey "AbsoluteAltitude"],
    [djiKey "GimbalRollDegree", djiKey "GimbalPitchDegree", djiKey "GimbalYawDegree"],
    some (djiKey "DewarpData"), (0, 90, 0), (1, 1, 1)⟩,
   ⟨[], ["{http://ns.sensefly.com/Camera/1.0/}Roll", "{http://ns.sensefly.com/Camera/1.0/}Pitch",
      "{http://ns.sensefly.com/Camera/1.0/}Yaw"], none, (0, 0, 0), (1, 1, 1)⟩,
   ⟨[], ["{http://pix4d.com/camera/1.0/}Roll", "{http://pix4d.com/camera/1.0/}Pitch",
      "{http://pix4d.com/camera/1.0/}Yaw"], none, (0, 0, 0), (1, 1, 1)⟩]

/-- `sum([key in xmp_dict for key in keys])`. -/
def countKeys (d : Xmp) (keys : List String) : ℕ := (keys.filter fun k => d.has k).length

/-- A list of three values as a tuple. -/
def three : List K → Res (K × K × K)
  | a :: b :: c :: _ => .ok (a, b, c)
  | _ => .error .indexError

/-- orthority/exif.py:333-339 `_get_xmp_lla`. -/
def xmpLla (ps : Parse K) (d : Xmp) : List (XmpSchema K) → Res (Option (K × K × K))
  | [] => .ok none
  | s :: ss =>
    if countKeys d s.llaKeys = 3 then do
      let l ← mapRes (xmpFloat ps d) s.llaKeys
      let t ← three l
      pure (some t)
    else xmpLla ps d ss

/-- orthority/exif.py:342-350 `_get_xmp_rpy`. -/
def xmpRpy (ps : Parse K) (d : Xmp) : List (XmpSchema K) → Res (Option (K × K × K))
  | [] => .ok none
  | s :: ss =>
    if countKeys d s.rpyKeys = 3 then do
      let l ← mapRes (xmpFloat ps d) s.rpyKeys
      let t ← three l
      pure (some (t.1 * s.gains.1 + s.offsets.1, t.2.1 * s.gains.2.1 + s.offsets.2.1,
        t.2.2 * s.gains.2.2 + s.offsets.2.2))
    else xmpRpy ps d ss

/-- Dewarp parameters in the text of a tag, orthority/exif.py:358. -/
def dewarpNums (ps : Parse K) (s : List Char) : Res (List K) :=
  mapRes (fun v => orValueError (ps.flt v)) (splitCh ',' ((splitCh ';' s).getLastD []))

/-- orthority/exif.py:353-359 `_get_xmp_dewarp`. -/
def xmpDewarp (ps : Parse K) (d : Xmp) : List (XmpSchema K) → Res (Option (List K))
  | [] => .ok none
  | s :: ss =>
    match s.dewarpKey.bind d.get? with
    | some (some (c :: cs)) => do
      let l ← dewarpNums ps (c :: cs)
      pure (some l)
    | _ => xmpDewarp ps d ss

/-! ## The Exif object -/

/-- An `Exif` object, orthority/exif.py:111-136.  The altitude is a numeric tag.  The orientation is not modelled. -/
structure ExifObj (K : Type) where
  filename : String
  imSize : ℕ × ℕ
  make : Option String
  model : Option String
  serial : Option String
  tagImSize : Option (ℤ × ℤ)
  sensorSize : Option (K × K)
  focalLen : Option (EV K)
  focalLen35 : Option (EV K)
  lla : Option (K × K × EV K)
  rpy : Option (K × K × K)
  dewarp : Option (List K)

/-- What `Exif.__init__` reads from a file: name, size, the default and EXIF tags, and the parsed XMP document
(orthority/exif.py:112-127).  Reading the file and parsing its XML are not modelled. -/
structure ImFile where
  filename : String
  imSize : ℕ × ℕ
  tags : Tags
  exifTags : Tags
  xmp : Option Xml

/-- The dictionary of XMP tags, orthority/exif.py:122-127. -/
def ImFile.xmpDict (f : ImFile) : Xmp := match f.xmp with
  | none => []
  | some x => flatDict x

/-- `exif_dict`, orthority/exif.py:118-119. -/
def ImFile.exifDict (f : ImFile) : Tags := if f.tags.length = 0 then f.exifTags else f.tags

/-- `a or b` of positions: tuples of three values are true. -/
def llaOr (a : Res (Option (K × K × K))) (b : Res (Option (K × K × EV K))) : Res (Option (K × K × EV K)) := do
  match ← a with
  | some (x, y, z) => pure (some (x, y, .one z))
  | none => b

/-- orthority/exif.py:111-136 `Exif.__init__`, with `_get_make_model_serial` (234-244) and `_get_focal_len` (289-293).
`lower` is `str.lower` of a tag. -/
def exifInit (ps : Parse K) (lower str : List Char → String) (f : ImFile) : Res (ExifObj K) := do
  let d := f.exifDict
  let x := f.xmpDict
  let tagIm ← tagImSize ps d
  let sensor ← sensorSize ps d f.imSize
  let f35 ← exifFloat ps d "EXIF_FocalLengthIn35mmFilm"
  let fl ← exifFloat ps d "EXIF_FocalLength"
  let lla ← llaOr (xmpLla ps x schemas) (exifLla ps d)
  let rpy ← xmpRpy ps x schemas
  let dewarp ← xmpDewarp ps x schemas
  pure { filename := f.filename, imSize := f.imSize, make := (d.get? "EXIF_Make").map lower,
         model := (d.get? "EXIF_Model").map lower, serial := (d.get? "EXIF_BodySerialNumber").map str,
         tagImSize := tagIm, sensorSize := sensor, focalLen := fl, focalLen35 := f35, lla := lla, rpy := rpy,
         dewarp := dewarp }

/-! ## Parameters -/

/-- orthority/param_io.py:132-138 `_create_exif_cam_id`. -/
def camId (e : ExifObj K) : String :=
  let l := [e.make, e.model, e.serial].filterMap fun p => p.bind fun s => if s = "" then none else some s
  let s := String.intercalate " " l
  if s = "" then "unknown" else s

/-- Interior parameters of one camera; `brown` is the camera type (else pinhole), and parameters that are not in the
dictionary are `none` or an empty list. -/
structure IntParam (K : Type) where
  brown : Bool
  imSize : ℕ × ℕ
  focal : List K
  sensor : Option (List K)
  cxy : Option (K × K)
  dist : List (String × K)
  deriving DecidableEq

/-- The dewarp data that can be interpreted, orthority/param_io.py:145-148: nine values that are not all zero, and a
tagged image size. -/
def usableDewarp (e : ExifObj K) : Option (List K × (ℤ × ℤ)) :=
  match e.dewarp, e.tagImSize with
  | some l, some t => if l.length = 9 ∧ l.any (fun x => decide (x ≠ 0)) then some (l, t) else none
  | _, _ => none

/-- orthority/param_io.py:150-163, the brown camera of dewarp data. -/
def brownParam (e : ExifObj K) (l : List K) (t : ℤ × ℤ) : IntParam K :=
  { brown := true, imSize := e.imSize, focal := l.take 2, sensor := some [(t.1 : K), (t.2 : K)],
    cxy := match l.drop 2 with
      | cx :: cy :: _ => some (cx / ((max t.1 t.2 : ℤ) : K), cy / ((max t.1 t.2 : ℤ) : K))
      | _ => none
    dist := ["k1", "k2", "p1", "p2", "k3"].zip (l.drop (l.length - 5)) }

/-- The values of a numeric tag. -/
def EV.list : EV K → List K
  | .one x => [x]
  | .many l => l

/-- orthority/param_io.py:141-187 `_read_exif_int_param`, the parameters of the camera.  A tuple for the 35 mm focal length
is a TypeError. -/
def intParam (e : ExifObj K) : Res (IntParam K) :=
  match usableDewarp e with
  | some (l, t) => .ok (brownParam e l t)
  | none =>
    match truthy e.focalLen, e.focalLen, e.sensorSize with
    | true, some f, some s =>
      .ok { brown := false, imSize := e.imSize, focal := f.list, sensor := some [s.1, s.2], cxy := none, dist := [] }
    | _, _, s =>
      match truthy e.focalLen35, e.focalLen35 with
      | true, some (.one f) => match s with
        | some s =>
          .ok { brown := false, imSize := e.imSize, focal := [max s.1 s.2 * f / 36], sensor := some [s.1, s.2],
                cxy := none, dist := [] }
        | none =>
          .ok { brown := false, imSize := e.imSize, focal := [f / 36], sensor := none, cxy := none, dist := [] }
      | true, some (.many _) => .error .typeError
      | _, _ => .error .paramError

/-- Exterior parameters of one image. -/
structure ExtParam (K : Type) where
  xyz : K × K × EV K
  opk : K × K × K
  camera : String
  deriving DecidableEq

/-- The conversions of orthority/param_io.py:198-201: `rasterio.warp.transform` from the position CRS to the world CRS of
(x, y, z) coordinates, and `_rpy_to_opk` after `np.radians`, at a (lat, lon, alt) position. -/
structure ExtFuns (K : Type) where
  transform : K → K → EV K → Res (K × K × EV K)
  rpyToOpk : K × K × K → K × K × EV K → Res (K × K × K)

/-- orthority/param_io.py:190-203 `_read_exif_ext_param`. -/
def extParam (fs : ExtFuns K) (e : ExifObj K) : Res (ExtParam K) :=
  match e.lla with
  | none => .error .paramError
  | some lla => match e.rpy with
    | none => .error .paramError
    | some rpy => do
      let opk ← fs.rpyToOpk rpy lla
      let xyz ← fs.transform lla.2.1 lla.1 lla.2.2
      pure ⟨xyz, opk, camId e⟩

/-- orthority/param_io.py:1348-1354 `ExifReader.read_int_param`, of the Exif objects by file name. -/
def readInt (es : List (ExifObj K)) : Res (Dict String (IntParam K)) :=
  es.foldlM (fun d e => do
    let p ← intParam e
    pure (d.set (camId e) p)) []

/-- orthority/param_io.py:1356-1362 `ExifReader.read_ext_param`. -/
def readExt (fs : ExtFuns K) (es : List (ExifObj K)) : Res (Dict String (ExtParam K)) :=
  es.foldlM (fun d e => do
    let p ← extParam fs e
    pure (d.set e.filename p)) []

end

end Verif.Exif
