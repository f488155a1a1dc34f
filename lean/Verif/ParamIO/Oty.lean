import Verif.ParamIO.Schema

/-!
# Model of the Orthority parameter file readers and writers (orthority/param_io.py)

JSON and YAML text is not modelled: a file holds a decoded value.  `json.dump` / `yaml.safe_dump` write tuples
as lists (`dumpVal`); otherwise decoding gives back what was dumped.  Enumeration members of `CameraType`
(a string enumeration) are represented by their string value.
-/

set_option autoImplicit false

namespace Verif.ParamIO

variable {F : Type}

/-- Dumping and loading a value turns a tuple into a list (nested tuples do not occur in the parameters). -/
def dumpVal : Py F → Py F
  | .tuple l => .list l
  | v => v

/-- A python dictionary with string keys as a value. -/
def strDict (d : Dict String (Py F)) : Py F := .dict (d.map fun p => (.str p.1, p.2))

/-- `except (ValueError, TypeError, KeyError) as ex: raise ParamError(...)`. -/
def repack {α : Type} : Res α → Res α
  | .error .valueError => .error .paramError
  | .error .typeError => .error .paramError
  | .error .keyError => .error .paramError
  | r => r

/-- The key that a value makes in a dictionary; lists and dictionaries are not hashable.  Values other than
strings are not told apart (no use of this does). -/
def keyOf : Py F → Res Key
  | .str s => .ok (.str s)
  | .list _ => .error .typeError
  | .dict _ => .error .typeError
  | _ => .ok (.other 0)

/-- A python `for` loop with an accumulator. -/
def loop {α β : Type} (f : β → α → Res β) : β → List α → Res β
  | b, [] => .ok b
  | b, a :: l => match f b a with
    | .error e => .error e
    | .ok b => loop f b l

/-! ## GCP files -/

/-- A ground control point, as in the values of `gcp_dict`. -/
structure Gcp (F : Type) where
  ji : List (Py F)
  xyz : List (Py F)
  id : Py F
  info : Py F

def numTys : Schema := .tys [.int, .float]

/-- orthority/param_io.py:539-548. -/
def gcpSchema : Schema :=
  .fields (.ofList [
    ("type", .val "FeatureCollection"),
    ("features", .list (.ofList [.fields (.ofList [
      ("type", .val "Feature"),
      ("properties", .fields (.ofList [("ji", .list (.ofList [numTys, numTys])), ("filename", .ty .str),
        ("id", .any), ("info", .any)])),
      ("geometry", .fields (.ofList [("type", .val "Point"),
        ("coordinates", .list (.ofList [numTys, numTys, numTys]))]))])]))])

/-- orthority/param_io.py:557-565: body of the loop over features. -/
def addFeature (d : Dict Key (List (Gcp F))) (feat : Py F) : Res (Dict Key (List (Gcp F))) := do
  let prop ← feat.getItem "properties"
  let filename ← prop.getItem "filename"
  let geom ← feat.getItem "geometry"
  let coords ← geom.getItem "coordinates"
  let xyz ← coords.items
  let ji ← prop.getItem "ji"
  let ji ← ji.items
  let id ← prop.getItem "id"
  let info ← prop.getItem "info"
  let k ← keyOf filename
  match d.get? k with
  | none => .ok (d.set k [⟨ji, xyz, id, info⟩])
  | some l => .ok (d.set k (l ++ [⟨ji, xyz, id, info⟩]))

/-- orthority/param_io.py:522-567 `read_oty_gcps`, from the decoded JSON. -/
def readOtyGcps (json : Py F) : Res (Dict Key (List (Gcp F))) := do
  repack (validate gcpSchema json)
  let feats ← json.getItem "features"
  let feats ← feats.items
  loop addFeature [] feats

/-- orthority/param_io.py:690-694: one feature. -/
def gcpFeature (filename : String) (g : Gcp F) : Py F :=
  strDict [
    ("type", .str "Feature"),
    ("properties", strDict [("ji", .list g.ji), ("filename", .str filename), ("id", dumpVal g.id),
      ("info", dumpVal g.info)]),
    ("geometry", strDict [("type", .str "Point"), ("coordinates", .list g.xyz)])]

/-- orthority/param_io.py:673-700 `write_gcps`: the JSON value written. -/
def writeGcps (d : Dict String (List (Gcp F))) : Py F :=
  strDict [("type", .str "FeatureCollection"),
    ("features", .list (d.flatMap fun p => p.2.map (gcpFeature p.1)))]

/-! ## Exterior parameter files -/

/-- Exterior parameters of an image. -/
structure Ext (F : Type) where
  xyz : List (Py F)
  opk : List (Py F)
  camera : Py F

/-- orthority/param_io.py:1392-1404. -/
def extSchema : Schema :=
  .fields (.ofList [
    ("type", .val "FeatureCollection"),
    ("world_crs", .ty .str),
    ("features", .list (.ofList [.fields (.ofList [
      ("type", .val "Feature"),
      ("properties", .fields (.ofList [("filename", .ty .str), ("camera", .any),
        ("xyz", .list (.ofList [numTys, numTys, numTys])), ("opk", .list (.ofList [numTys, numTys, numTys]))])),
      ("geometry", .fields (.ofList [("type", .val "Point"), ("coordinates", .list (.ofList [numTys]))]))])]))])

/-- What the code uses of a CRS library.  `parse` is `CRS.from_string` (`none` when it raises `CRSError`). -/
structure CrsLib (C : Type) where
  parse : String → Option C
  toString : C → String
  isProjected : C → Bool

variable {C : Type}

/-- orthority/param_io.py:1375-1377 `OtyReader.__init__`: the CRS and the validated dictionary. -/
def otyReaderInit (lib : CrsLib C) (json : Py F) : Res (C × Py F) := do
  repack (validate extSchema json)
  match ← json.getItem "world_crs" with
  | .str s => match lib.parse s with
    | some crs => .ok (crs, json)
    | none => .error .paramError
  | _ => .error .typeError

/-- orthority/param_io.py:1417-1424: body of the loop over features. -/
def addExt (d : Dict Key (Ext F)) (feat : Py F) : Res (Dict Key (Ext F)) := do
  let prop ← feat.getItem "properties"
  let filename ← prop.getItem "filename"
  let xyz ← prop.getItem "xyz"
  let xyz ← xyz.items
  let opk ← prop.getItem "opk"
  let opk ← opk.items
  let camera ← prop.getItem "camera"
  let k ← keyOf filename
  .ok (d.set k ⟨xyz, opk, camera⟩)

/-- orthority/param_io.py:1365-1425 `OtyReader(file).read_ext_param()`, with the reader's `crs`. -/
def readOtyExt (lib : CrsLib C) (json : Py F) : Res (C × Dict Key (Ext F)) := do
  let (crs, json) ← otyReaderInit lib json
  let feats ← json.getItem "features"
  let feats ← feats.items
  let d ← loop addExt [] feats
  .ok (crs, d)

/-- orthority/param_io.py:632-640: one feature; `lla` is the position transformed to (longitude, latitude,
altitude) by PROJ. -/
def extFeature (lla : List (Py F) → List (Py F)) (filename : String) (e : Ext F) : Py F :=
  strDict [
    ("type", .str "Feature"),
    ("properties", strDict [("filename", .str filename), ("camera", dumpVal e.camera), ("xyz", .list e.xyz),
      ("opk", .list e.opk)]),
    ("geometry", strDict [("type", .str "Point"), ("coordinates", .list (lla e.xyz))])]

/-- orthority/param_io.py:600-645 `write_ext_param`: the JSON value written. -/
def writeExt (lib : CrsLib C) (lla : C → List (Py F) → List (Py F)) (d : Dict String (Ext F)) (crs : C) :
    Res (Py F) :=
  if ¬ lib.isProjected crs then .error .crsError
  else .ok (strDict [("type", .str "FeatureCollection"), ("world_crs", .str (lib.toString crs)),
    ("features", .list (d.map fun p => extFeature (lla crs) p.1 p.2))])

/-! ## RPC files -/

/-- orthority/param_io.py:412-433. -/
def rpcSchema : Schema :=
  let coeffs : Schema := .list (.ofList (List.replicate 20 (.ty .float)))
  .anyKey .str (.fields (.ofList [
    ("im_size", .list (.ofList [.tys [.float, .int], .tys [.float, .int]])),
    ("rpc", .fields (.ofList [
      ("height_off", .ty .float), ("height_scale", .ty .float), ("lat_off", .ty .float),
      ("lat_scale", .ty .float), ("line_den_coeff", coeffs), ("line_num_coeff", coeffs),
      ("line_off", numTys), ("line_scale", numTys), ("long_off", .ty .float), ("long_scale", .ty .float),
      ("samp_den_coeff", coeffs), ("samp_num_coeff", coeffs), ("samp_off", numTys),
      ("samp_scale", numTys)]))]))

/-- orthority/param_io.py:442-446: body of the loop over images. -/
def addRpc (d : Dict Key (Dict String (Py F))) (item : Key × Py F) : Res (Dict Key (Dict String (Py F))) := do
  let size ← item.2.getItem "im_size"
  let size ← size.items
  let rpc ← item.2.getItem "rpc"
  .ok (d.set item.1 [("cam_type", .str "rpc"), ("im_size", .tuple size), ("rpc", rpc)])

/-- orthority/param_io.py:397-448 `read_oty_rpc_param`, from the decoded YAML. -/
def readOtyRpc (yaml : Py F) : Res (Dict Key (Dict String (Py F))) := do
  repack (validate rpcSchema yaml)
  match yaml with
  | .dict d => loop addRpc [] d
  | _ => .error .attributeError

/-- orthority/param_io.py:648-670 `write_rpc_param`: the YAML value written. -/
def writeRpc (d : Dict String (Dict String (Py F))) : Py F :=
  strDict (d.map fun p => (p.1, strDict ((p.2.filter fun q => q.1 ≠ "cam_type").map fun q => (q.1, dumpVal q.2))))

/-! ## Interior parameter files -/

/-- Frame camera types, orthority/enums.py:39-69. -/
inductive FrameType
  | pinhole | brown | fisheye | opencv
  deriving DecidableEq, Repr

def FrameType.name : FrameType → String
  | .pinhole => "pinhole" | .brown => "brown" | .fisheye => "fisheye" | .opencv => "opencv"

/-- `cam_type not in CameraType.__members__ or cam_type == 'rpc'`, orthority/param_io.py:231. -/
def FrameType.parse (s : String) : Option FrameType :=
  if s = "pinhole" then some .pinhole else if s = "brown" then some .brown
  else if s = "fisheye" then some .fisheye else if s = "opencv" then some .opencv else none

/-- orthority/param_io.py:56-65 `_opt_frame_schema`. -/
def FrameType.optKeys : FrameType → List String
  | .pinhole => ["sensor_size", "cx", "cy"]
  | .opencv => ["sensor_size", "cx", "cy", "k1", "k2", "p1", "p2", "k3", "k4", "k5", "k6", "s1", "s2", "s3",
      "s4", "tx", "ty"]
  | .brown => ["sensor_size", "cx", "cy", "k1", "k2", "p1", "p2", "k3"]
  | .fisheye => ["sensor_size", "cx", "cy", "k1", "k2", "k3", "k4"]

/-- The string of a string key. -/
def Key.str? : Key → Option String
  | .str s => some s
  | .other _ => none

/-- `tuple(focal_len) if isinstance(focal_len, list) else focal_len`, orthority/param_io.py:242. -/
def tupleIfList : Py F → Py F
  | .list l => .tuple l
  | v => v

/-- Python's `str.lower` is the parameter `lower`.
orthority/param_io.py:222-251 `parse_yaml_param`, on the items of the dictionary of one camera. -/
def parseIntParam (lower : String → String) (d : Dict Key (Py F)) : Res (Dict String (Py F)) :=
  match d.get? (.str "type"), d.get? (.str "im_size"), d.get? (.str "focal_len") with
  | some ty, some size, some focal =>
    match ty with
    | .str s =>
      match FrameType.parse (lower s) with
      | none => .error .paramError
      | some t =>
        match size.items with
        | .error e => .error e
        | .ok size =>
          let p : Dict String (Py F) :=
            [("cam_type", .str t.name), ("im_size", .tuple size), ("focal_len", tupleIfList focal)]
          let sensor : Res (Dict String (Py F)) := match d.get? (.str "sensor_size") with
            | none => .ok p
            | some v => match v.items with
              | .error e => .error e
              | .ok l => .ok (p.set "sensor_size" (.tuple l))
          match sensor with
          | .error e => .error e
          | .ok p =>
            let rest := d.filter fun q =>
              q.1 ∉ [Key.str "type", .str "im_size", .str "name", .str "focal_len", .str "sensor_size"]
            if rest.any fun q => !q.1.str?.any t.optKeys.contains then .error .paramError
            else .ok (p.update (rest.filterMap fun q => q.1.str?.map fun k => (k, q.2)))
    | _ => .error .attributeError
  | _, _, _ => .error .paramError

/-- `'camera' in v`. -/
def inCamera : Py F → Res Bool
  | .dict d => .ok (Dict.has d (.str "camera"))
  | .list l => .ok (l.any fun x => match x with | .str s => s = "camera" | _ => false)
  | .tuple l => .ok (l.any fun x => match x with | .str s => s = "camera" | _ => false)
  | .str s => .ok ((s.splitOn "camera").length > 1)
  | _ => .error .typeError

/-- `next(iter(v.values()))`. -/
def firstValue : Py F → Res (Py F)
  | .dict [] => .error .stopIteration
  | .dict (p :: _) => .ok p.2
  | _ => .error .attributeError

/-- orthority/param_io.py:275-281: the loop over cameras. -/
def addInt (lower : String → String) (d : Dict Key (Dict String (Py F))) (item : Key × Py F) :
    Res (Dict Key (Dict String (Py F))) :=
  match item.2 with
  | .dict c => match parseIntParam lower c with
    | .error e => .error e
    | .ok p => .ok (d.set item.1 p)
  | _ => .error .typeError

/-- orthority/param_io.py:260-265: the `name` used for the flat format. -/
def flatName (yaml : Py F) : Res Key :=
  match yaml with
  | .dict d => match Dict.get? d (.str "name") with
    | some v => keyOf v
    | none => .ok (.str "unknown")
  | _ => .error .typeError

def isDict : Py F → Bool
  | .dict _ => true
  | _ => false

/-- orthority/param_io.py:253-260: `camera` item of the old format. -/
def unwrapOld (yaml : Py F) : Res (Py F) :=
  match inCamera yaml with
  | .error e => .error e
  | .ok true => yaml.getItem "camera"
  | .ok false => .ok yaml

/-- orthority/param_io.py:262-266: nest the flat format. -/
def unflatten (yaml : Py F) : Res (Py F) :=
  match firstValue yaml with
  | .error e => .error e
  | .ok first =>
    if isDict first then .ok yaml
    else match flatName yaml with
      | .error e => .error e
      | .ok k => .ok (.dict [(k, yaml)])

/-- orthority/param_io.py:268-283: validate and parse the cameras. -/
def parseCams (lower : String → String) (yaml : Py F) : Res (Dict Key (Dict String (Py F))) := do
  repack (validate (.anyKey .str (.ty .dict)) yaml)
  match yaml with
  | .dict d => loop (addInt lower) [] d
  | _ => .error .attributeError

/-- orthority/param_io.py:206-283 `read_oty_int_param`, from the decoded YAML. -/
def readOtyInt (lower : String → String) (yaml : Py F) : Res (Dict Key (Dict String (Py F))) := do
  let yaml ← unwrapOld yaml
  let yaml ← unflatten yaml
  parseCams lower yaml

/-- orthority/param_io.py:586-593: the YAML dictionary of one camera. -/
def yamlIntParam (p : Dict String (Py F)) : Dict String (Py F) :=
  let y : Dict String (Py F) := match p.get? "cam_type" with
    | some v => [("type", v)]
    | none => []
  y.update (p.filter fun q => q.1 ≠ "cam_type")

/-- orthority/param_io.py:570-597 `write_int_param`: the YAML value written. -/
def writeInt (d : Dict String (Dict String (Py F))) : Py F :=
  strDict (d.map fun p => (p.1, strDict ((yamlIntParam p.2).map fun q => (q.1, dumpVal q.2))))

end Verif.ParamIO
