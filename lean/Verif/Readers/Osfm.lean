import Verif.ParamIO.RoundTrip2

/-!
# C24: OpenSfM / OpenDroneMap files
-/

set_option autoImplicit false

namespace Verif.Readers

open ParamIO

variable {F X : Type}

/-- `cam_id[3:] if cam_id.startswith('v2 ') else cam_id`, orthority/param_io.py:126 and 1259. -/
def stripV2 (s : String) : String :=
  match s.toList with
  | 'v' :: '2' :: ' ' :: r => String.ofList r
  | _ => s

/-- Python functions used on strings and values: `str.lower`, `str.strip` and `==`. -/
structure PyFuns (F : Type) where
  lower : String → String
  strip : String → String
  eq : Py F → Py F → Bool

/-- orthority/enums.py:72-79 `CameraType.from_odm`. -/
def fromOdm (py : PyFuns F) (s : String) : Option FrameType :=
  let s := py.strip (py.lower s)
  FrameType.parse (if s ∈ ["perspective", "simple_radial", "radial"] then "brown" else s)

/-- orthority/param_io.py:93-103: the focal length, and the keys that are used for it. -/
def osfmFocal (py : PyFuns F) (d : Dict Key (Py F)) : Option (Py F × List String) :=
  match Dict.get? d (.str "focal") with
  | some f => some (f, ["focal"])
  | none => match Dict.get? d (.str "focal_x"), Dict.get? d (.str "focal_y") with
    | some x, some y => some (if py.eq x y then x else .tuple [x, y], ["focal_x", "focal_y"])
    | _, _ => none

/-- orthority/param_io.py:76-114 `parse_json_param`, on the items of the dictionary of one camera. -/
def parseOsfmParam (py : PyFuns F) (d : Dict Key (Py F)) : Res (Dict String (Py F)) :=
  match Dict.get? d (.str "projection_type"), Dict.get? d (.str "width"), Dict.get? d (.str "height") with
  | some ty, some w, some h =>
    match ty with
    | .str s =>
      match fromOdm py (py.lower s) with
      | none => .error .paramError
      | some t =>
        match osfmFocal py d with
        | none => .error .paramError
        | some (focal, used) =>
          let p : Dict String (Py F) :=
            [("cam_type", .str t.name), ("im_size", .tuple [w, h]), ("focal_len", focal)]
          let p := match Dict.get? d (.str "c_x") with
            | some v => p.set "cx" v
            | none => p
          let p := match Dict.get? d (.str "c_y") with
            | some v => p.set "cy" v
            | none => p
          let rest := d.filter fun q =>
            q.1 ∉ (["projection_type", "width", "height", "c_x", "c_y"] ++ used).map Key.str
          if rest.any fun q => !q.1.str?.any t.optKeys.contains then .error .paramError
          else .ok (p.update (rest.filterMap fun q => q.1.str?.map fun k => (k, q.2)))
    | _ => .error .attributeError
  | _, _, _ => .error .paramError

/-- The new key of a camera. -/
def stripKey : Key → Key
  | .str s => .str (stripV2 s)
  | k => k

/-- orthority/param_io.py:124-127: the loop over cameras. -/
def addOsfmInt (py : PyFuns F) (d : Dict Key (Dict String (Py F))) (item : Key × Py F) :
    Res (Dict Key (Dict String (Py F))) :=
  match item.2 with
  | .dict c => match parseOsfmParam py c with
    | .error e => .error e
    | .ok p => .ok (d.set (stripKey item.1) p)
  | _ => .error .attributeError

/-- orthority/param_io.py:71-129 `_read_osfm_int_param`. -/
def readOsfmInt (py : PyFuns F) (json : Py F) : Res (Dict Key (Dict String (Py F))) := do
  repack (validate (.anyKey .str (.ty .dict)) json)
  match json with
  | .dict d => loop (addOsfmInt py) [] d
  | _ => .error .attributeError

/-- orthority/param_io.py:1213-1219. -/
def osfmSchema : Schema :=
  .list (.ofList [.fields (.ofList [
    ("cameras", .ty .dict),
    ("shots", .anyKey .str (.fields (.ofList [
      ("rotation", .list (.ofList [.ty .float, .ty .float, .ty .float])),
      ("translation", .list (.ofList [.ty .float, .ty .float, .ty .float])),
      ("camera", .ty .str)]))),
    ("reference_lla", .fields (.ofList [("latitude", .ty .float), ("longitude", .ty .float),
      ("altitude", .ty .float)]))])])

/-- The exterior parameters of a shot, as far as they concern the camera: position and rotation are a function
`pose` of the translation and rotation (C35). -/
structure OsfmExt (X : Type) where
  pose : X
  camera : String

/-- orthority/param_io.py:1250-1262: body of the loop over shots. -/
def addShot (pose : Py F → Py F → X) (d : Dict Key (OsfmExt X)) (item : Key × Py F) :
    Res (Dict Key (OsfmExt X)) := do
  let t ← item.2.getItem "translation"
  let r ← item.2.getItem "rotation"
  let c ← item.2.getItem "camera"
  match c with
  | .str s => .ok (d.set item.1 ⟨pose t r, stripV2 s⟩)
  | _ => .error .attributeError

/-- orthority/param_io.py:1160-1263 `OsfmReader(file)`, `read_int_param()` and `read_ext_param()`, from the
decoded JSON.  The CRS is not modelled here. -/
def readOsfm (py : PyFuns F) (pose : Py F → Py F → X) (json : Py F) :
    Res (Dict Key (Dict String (Py F)) × Dict Key (OsfmExt X)) := do
  repack (validate osfmSchema json)
  match json with
  | .list (root :: _) => do
    let cams ← root.getItem "cameras"
    let ints ← readOsfmInt py cams
    let shots ← root.getItem "shots"
    match shots with
    | .dict d => do
      let exts ← loop (addShot pose) [] d
      .ok (ints, exts)
    | _ => .error .attributeError
  | _ => .error .typeError

/-! ## Specification and theorems -/

/-- The file has this camera, with this dictionary. -/
def FileCamera (json : Py F) (id : String) (c : List (Key × Py F)) : Prop :=
  ∃ root rest cams, json = .list (.dict root :: rest) ∧ Dict.get? root (.str "cameras") = some (.dict cams) ∧
    Dict.get? cams (.str id) = some (.dict c)

/-- The file has this shot, made with this camera, with this translation and rotation. -/
def FileShot (json : Py F) (name id : String) (tr ro : Py F) : Prop :=
  ∃ root rest shots s, json = .list (.dict root :: rest) ∧ Dict.get? root (.str "shots") = some (.dict shots) ∧
    Dict.get? shots (.str name) = some (.dict s) ∧ Dict.get? s (.str "camera") = some (.str id) ∧
    Dict.get? s (.str "translation") = some tr ∧ Dict.get? s (.str "rotation") = some ro

/-- All python dictionaries in the file have distinct keys. -/
def FileOk (json : Py F) : Prop :=
  ∀ root rest, json = .list (.dict root :: rest) →
    (∀ cams, Dict.get? root (.str "cameras") = some (.dict cams) → Dict.Ok cams) ∧
    (∀ shots, Dict.get? root (.str "shots") = some (.dict shots) → Dict.Ok shots)

/-- Set a key to the value of a result, if there is one. -/
def setRes {β : Type} (d : Dict Key β) (k : Key) : Res β → Res (Dict Key β)
  | .ok v => .ok (d.set k v)
  | .error e => .error e

theorem loop_get {α β : Type} {f : Dict Key β → α → Res (Dict Key β)} {key : α → Key} {val : α → Res β}
    (hf : ∀ a d, f d a = setRes d (key a) (val a))
    {l : List α} (hnd : (l.map key).Nodup) {d d' : Dict Key β} (h : loop f d l = .ok d') :
    (∀ a ∈ l, ∃ v, val a = .ok v ∧ d'.get? (key a) = some v) ∧
      ∀ k, k ∉ l.map key → d'.get? k = d.get? k := by
  induction l generalizing d with
  | nil =>
    simp only [loop, Except.ok.injEq] at h
    subst h
    exact ⟨by simp, fun _ _ => rfl⟩
  | cons a l ih =>
    rw [List.map_cons, List.nodup_cons] at hnd
    unfold loop at h
    rw [hf] at h
    cases hv : val a with
    | error e => rw [hv] at h; exact absurd h (by simp [setRes])
    | ok v =>
      rw [hv] at h
      simp only [setRes] at h
      obtain ⟨h1, h2⟩ := ih hnd.2 h
      refine ⟨?_, ?_⟩
      · intro b hb
        rcases List.mem_cons.1 hb with rfl | hb
        · refine ⟨v, hv, ?_⟩
          rw [h2 _ hnd.1, Dict.get?_set, if_pos rfl]
        · exact h1 b hb
      · intro k hk
        simp only [List.map_cons, List.mem_cons, not_or] at hk
        rw [h2 k hk.2, Dict.get?_set, if_neg (fun e => hk.1 e.symm)]

theorem getItem_ok {v : Py F} {k : String} {x : Py F} (h : v.getItem k = .ok x) :
    ∃ d, v = .dict d ∧ Dict.get? d (.str k) = some x := by
  unfold Py.getItem at h
  cases v with
  | dict d =>
    simp only at h
    cases hg : Dict.get? d (.str k) with
    | none => simp [hg] at h
    | some y => rw [hg] at h; simp only [Except.ok.injEq] at h; exact ⟨d, rfl, h ▸ hg⟩
  | _ => simp at h

theorem bind_ok {α β : Type} {r : Res α} {f : α → Res β} {b : β} (h : (r >>= f) = .ok b) :
    ∃ a, r = .ok a ∧ f a = .ok b := by
  cases r with
  | error e => exact absurd h (by simp [error_bind])
  | ok a => exact ⟨a, rfl, h⟩

theorem readOsfmInt_spec {py : PyFuns F} {cams : List (Key × Py F)} {ints : Dict Key (Dict String (Py F))}
    (h : readOsfmInt py (.dict cams) = .ok ints) (hnd : (cams.map fun p => stripKey p.1).Nodup)
    {id : String} {c : List (Key × Py F)} (hc : (Key.str id, Py.dict c) ∈ cams) :
    ∃ p, parseOsfmParam py c = .ok p ∧ ints.get? (.str (stripV2 id)) = some p := by
  unfold readOsfmInt at h
  obtain ⟨-, -, h⟩ := bind_ok h
  simp only at h
  have hf : ∀ (a : Key × Py F) (d : Dict Key (Dict String (Py F))), addOsfmInt py d a =
      setRes d (stripKey a.1) (match a.2 with
        | .dict c => parseOsfmParam py c
        | _ => .error .attributeError) := by
    intro a d
    unfold addOsfmInt
    cases a.2 with
    | dict c => simp only; cases parseOsfmParam py c <;> rfl
    | _ => rfl
  obtain ⟨h1, -⟩ := loop_get hf hnd h
  obtain ⟨v, hv, hg⟩ := h1 _ hc
  exact ⟨v, hv, hg⟩

/-- C24 (part): in what an accepted reconstruction file gives, the camera ID of every shot names the interior
parameters read from the camera that the shot refers to in the file, and the pose is that of the shot's own
translation and rotation, if no two camera IDs of the file are the
same after a leading `v2 ` is dropped.  Missing: files with such IDs (`C24_collision_fails`). -/
theorem C24_linked_partial (py : PyFuns F) (pose : Py F → Py F → X) (json : Py F)
    (ints : Dict Key (Dict String (Py F))) (exts : Dict Key (OsfmExt X))
    (h : readOsfm py pose json = .ok (ints, exts)) (hok : FileOk json)
    (hid : ∀ a b ca cb, FileCamera json a ca → FileCamera json b cb → stripV2 a = stripV2 b → a = b)
    (name id : String) (tr ro : Py F) (c : List (Key × Py F)) (hs : FileShot json name id tr ro)
    (hc : FileCamera json id c) :
    ∃ e p, exts.get? (.str name) = some e ∧ e.pose = pose tr ro ∧ e.camera = stripV2 id ∧ ints.get? (.str e.camera) = some p ∧
      parseOsfmParam py c = .ok p := by
  obtain ⟨root, rest, cams, rfl, hcams, hcid⟩ := hc
  obtain ⟨root', rest', shots, s, he, hshots, hsn, hsc, hst, hsr⟩ := hs
  simp only [Py.list.injEq, List.cons.injEq, Py.dict.injEq] at he
  obtain ⟨rfl, rfl⟩ := he
  obtain ⟨hok1, hok2⟩ := hok root rest rfl
  unfold readOsfm at h
  obtain ⟨-, -, h⟩ := bind_ok h
  simp only [getItem_dict hcams, ok_bind] at h
  obtain ⟨ints', hi, h⟩ := bind_ok h
  simp only [getItem_dict hshots, ok_bind] at h
  obtain ⟨exts', hx, h⟩ := bind_ok h
  simp only [Except.ok.injEq, Prod.mk.injEq] at h
  obtain ⟨rfl, rfl⟩ := h
  have hval : ∀ p ∈ cams, ∃ a ca, p = (Key.str a, Py.dict ca) := by
    unfold readOsfmInt at hi
    obtain ⟨u, hv, -⟩ := bind_ok hi
    rcases repack_validate (.anyKey .str (.ty .dict)) trivial (.dict cams) with ⟨-, hcf⟩ | he
    · obtain ⟨d', hd', h2⟩ := hcf
      simp only [Py.dict.injEq] at hd'
      subst hd'
      intro p hp
      obtain ⟨h3, h4⟩ := h2 p hp
      obtain ⟨k, v⟩ := p
      cases k with
      | other n => simp [Key.isInstance] at h3
      | str a =>
        cases v with
        | dict ca => exact ⟨a, ca, rfl⟩
        | _ => simp [Conforms, Py.isInstance] at h4
    · rw [he] at hv; exact absurd hv (by simp)
  have hnd : (cams.map fun p => stripKey p.1).Nodup := by
    have hcok := hok1 cams hcams
    have : (cams.map fun p => stripKey p.1) = (cams.map Prod.fst).map stripKey := by simp
    rw [this]
    refine List.Nodup.map_on ?_ hcok
    intro x hx y hy hxy
    obtain ⟨p, hp, rfl⟩ := List.mem_map.1 hx
    obtain ⟨q, hq, rfl⟩ := List.mem_map.1 hy
    obtain ⟨a, ca, rfl⟩ := hval p hp
    obtain ⟨b, cb, rfl⟩ := hval q hq
    simp only [stripKey, Key.str.injEq] at hxy ⊢
    exact hid a b ca cb ⟨root, rest, cams, rfl, hcams, Dict.get?_of_mem hcok hp⟩
      ⟨root, rest, cams, rfl, hcams, Dict.get?_of_mem hcok hq⟩ hxy
  obtain ⟨p, hp1, hp2⟩ := readOsfmInt_spec hi hnd (Dict.mem_of_get? hcid)
  have hf : ∀ (a : Key × Py F) (d : Dict Key (OsfmExt X)), addShot pose d a =
      setRes d a.1 (do
        let t ← a.2.getItem "translation"
        let r ← a.2.getItem "rotation"
        let c ← a.2.getItem "camera"
        match c with
        | .str s => .ok ⟨pose t r, stripV2 s⟩
        | _ => .error .attributeError : Res (OsfmExt X)) := by
    intro a d
    unfold addShot
    cases a.2.getItem "translation" with
    | error e => rfl
    | ok t =>
      cases a.2.getItem "rotation" with
      | error e => rfl
      | ok r =>
        cases a.2.getItem "camera" with
        | error e => rfl
        | ok c =>
          simp only [ok_bind]
          cases c <;> rfl
  obtain ⟨h1, -⟩ := loop_get hf (hok2 shots hshots) hx
  obtain ⟨v, hv, hg⟩ := h1 _ (Dict.mem_of_get? hsn)
  simp only [getItem_dict hst, getItem_dict hsr, getItem_dict hsc, ok_bind, Except.ok.injEq] at hv
  subst hv
  exact ⟨_, p, hg, rfl, rfl, hp2, hp1⟩

/-- A reconstruction file with two cameras and a shot. -/
def demoOsfm (x : F) (id1 id2 shotCam : String) (h1 h2 : ℤ) : Py F :=
  let cam (h : ℤ) : Py F := strDict [("projection_type", .str "brown"), ("width", .int 30), ("height", .int h),
    ("focal_x", .float x), ("focal_y", .float x), ("c_x", .float x), ("k1", .float x)]
  let v : Py F := .list [.float x, .float x, .float x]
  .list [strDict [("cameras", strDict [(id1, cam h1), (id2, cam h2)]),
    ("shots", strDict [("a.tif", strDict [("rotation", v), ("translation", v), ("camera", .str shotCam)])]),
    ("reference_lla", strDict [("latitude", .float x), ("longitude", .float x), ("altitude", .float x)])]]

def demoInt (x : F) (h : ℤ) : Dict String (Py F) :=
  [("cam_type", .str "brown"), ("im_size", .tuple [.int 30, .int h]), ("focal_len", .float x), ("cx", .float x),
    ("k1", .float x)]

/-- Python functions that are enough for the examples. -/
def demoPy : PyFuns F := ⟨id, id, fun _ _ => true⟩

/-- A file with two cameras and a shot of the first. -/
example (x : F) : readOsfm demoPy (fun _ _ => ()) (demoOsfm x "v2 a" "b" "v2 a" 20 10) =
    .ok ([(.str "a", demoInt x 20), (.str "b", demoInt x 10)], [(.str "a.tif", ⟨(), "a"⟩)]) := by cbv

/-- C24: the shot refers to the camera `v2 a` of height 20, but gets the camera `a` of height 10. -/
theorem C24_collision_fails (x : F) :
    readOsfm demoPy (fun _ _ => ()) (demoOsfm x "v2 a" "a" "v2 a" 20 10) =
      .ok ([(.str "a", demoInt x 10)], [(.str "a.tif", ⟨(), "a"⟩)]) ∧
    (∃ tr ro, FileShot (demoOsfm x "v2 a" "a" "v2 a" 20 10) "a.tif" "v2 a" tr ro) ∧
    ∃ c, FileCamera (demoOsfm x "v2 a" "a" "v2 a" 20 10) "v2 a" c ∧
      parseOsfmParam demoPy c = .ok (demoInt x 20) :=
  ⟨by cbv, ⟨_, _, _, _, _, _, rfl, rfl, rfl, rfl, rfl, rfl⟩, _, ⟨_, _, _, rfl, rfl, rfl⟩, rfl⟩

end Verif.Readers
