import Verif.Readers.OsfmInt
import Verif.Frame.Fit

/-!
# C81: from interior parameters to cameras
-/

set_option autoImplicit false

namespace Verif.Create

open Verif.ParamIO
open Verif.Frame hiding FrameType
open Real (sqrt)

noncomputable section

/-! ## Model -/

/-- A value used as number in numpy arithmetic.  Text and `None` end in TypeError (`UFuncTypeError`).  Lists are not modelled (numpy
raises ValueError for most). -/
def num : Py ℝ → Res ℝ
  | .int n => .ok n
  | .float x => .ok x
  | .bool b => .ok (if b then 1 else 0)
  | _ => .error .typeError

/-- The values of a sequence as numbers. -/
def nums : List (Py ℝ) → Res (List ℝ)
  | [] => .ok []
  | v :: vs => do
    let x ← num v
    let xs ← nums vs
    pure (x :: xs)

/-- `int(v)`.  Text is a ValueError (text of a whole number, which python accepts, is not modelled). -/
def pyInt : Py ℝ → Res ℤ
  | .int n => .ok n
  | .float x => .ok (if 0 ≤ x then ⌊x⌋ else ⌈x⌉)
  | .bool b => .ok (if b then 1 else 0)
  | .str _ => .error .valueError
  | _ => .error .typeError

/-- `v[i]` for a sequence. -/
def item (v : Py ℝ) (i : ℕ) : Res (Py ℝ) :=
  match v with
  | .tuple l | .list l => match l[i]? with
    | some x => .ok x
    | none => .error .indexError
  | _ => .error .typeError

/-- `(int(im_size[0]), int(im_size[1]))`, orthority/camera.py:607.  Negative sizes are not modelled. -/
def imSizeOf (v : Py ℝ) : Res (ℕ × ℕ) := do
  let w ← item v 0
  let w ← pyInt w
  let h ← item v 1
  let h ← pyInt h
  pure (w.toNat, h.toNat)

/-- `np.array(focal_len)`, orthority/camera.py:670. -/
def focalOf : Py ℝ → Res (List ℝ)
  | .tuple l | .list l => nums l
  | v => do
    let x ← num v
    pure [x]

/-- `sensor_size`, orthority/camera.py:668-684. -/
def sensorOf : Option (Py ℝ) → Res (Option (List ℝ))
  | none | some .null => .ok none
  | some (.tuple l) | some (.list l) => do
    let xs ← nums l
    pure (some xs)
  | some _ => .error .typeError

/-- A parameter that is zero by default. -/
def zeroOr (kw : Dict String (Py ℝ)) (n : String) : Res ℝ :=
  match kw.get? n with
  | none => .ok 0
  | some v => num v

/-- Parameters of the constructors: orthority/camera.py:594-605, 1185-1210, 1320-1336 and 1417-1432. -/
def ctorParams : FrameType → List String
  | .pinhole => ["im_size", "focal_len", "sensor_size", "cx", "cy", "xyz", "opk", "distort", "alpha"]
  | .opencv => ["im_size", "focal_len", "sensor_size", "cx", "cy", "k1", "k2", "k3", "p1", "p2", "k4", "k5", "k6", "s1", "s2", "s3",
      "s4", "tx", "ty", "xyz", "opk", "distort", "alpha"]
  | .brown => ["im_size", "focal_len", "sensor_size", "cx", "cy", "k1", "k2", "p1", "p2", "k3", "xyz", "opk", "distort", "alpha"]
  | .fisheye => ["im_size", "focal_len", "sensor_size", "cx", "cy", "k1", "k2", "k3", "k4", "xyz", "opk", "distort", "alpha"]

/-- `_dist_param` of a camera: orthority/camera.py:1223-1229 (OpenCV order, then shortened), 1343-1344 and 1445. -/
def distParam (t : FrameType) (kw : Dict String (Py ℝ)) : Res (List ℝ) :=
  match t with
  | .pinhole => .ok []
  | .opencv => do
    let k1 ← zeroOr kw "k1"
    let k2 ← zeroOr kw "k2"
    let k3 ← zeroOr kw "k3"
    let p1 ← zeroOr kw "p1"
    let p2 ← zeroOr kw "p2"
    let k4 ← zeroOr kw "k4"
    let k5 ← zeroOr kw "k5"
    let k6 ← zeroOr kw "k6"
    let s1 ← zeroOr kw "s1"
    let s2 ← zeroOr kw "s2"
    let s3 ← zeroOr kw "s3"
    let s4 ← zeroOr kw "s4"
    let tx ← zeroOr kw "tx"
    let ty ← zeroOr kw "ty"
    pure (truncDist (cvOrder k1 k2 k3 p1 p2 k4 k5 k6 s1 s2 s3 s4 tx ty))
  | .brown => do
    let k1 ← zeroOr kw "k1"
    let k2 ← zeroOr kw "k2"
    let p1 ← zeroOr kw "p1"
    let p2 ← zeroOr kw "p2"
    let k3 ← zeroOr kw "k3"
    pure [k1, k2, p1, p2, k3]
  | .fisheye => do
    let k1 ← zeroOr kw "k1"
    let k2 ← zeroOr kw "k2"
    let k3 ← zeroOr kw "k3"
    let k4 ← zeroOr kw "k4"
    pure [k1, k2, k3, k4]

/-- What a frame camera object keeps of its interior parameters: class, `_im_size`, `_K` and `_dist_param`.  The matrix for
undistorted images is in `Verif.Frame.Undistort`. -/
structure CamObj where
  type : FrameType
  imSize : ℕ × ℕ
  K : M3
  dist : List ℝ

/-- The constructors, orthority/camera.py:594-614, 1185-1230, 1320-1344 and 1417-1446, with keyword arguments.  When several values are
wrong, which exception comes first is not modelled. -/
def construct (t : FrameType) (kw : Dict String (Py ℝ)) : Res CamObj :=
  if kw.any (fun q => decide (q.1 ∉ ctorParams t)) then .error .typeError
  else match kw.get? "im_size", kw.get? "focal_len" with
    | some size, some focal => do
      let im ← imSizeOf size
      let f ← focalOf focal
      let s ← sensorOf (kw.get? "sensor_size")
      let cx ← zeroOr kw "cx"
      let cy ← zeroOr kw "cy"
      let K ← getIntrinsic im f s cx cy
      if K.det = 0 then .error .valueError
      else do
        let d ← distParam t kw
        pure ⟨t, im, K, d⟩
    | _, _ => .error .typeError

/-- orthority/camera.py:1491-1511 `create_camera(**int_param, **cam_kwargs)`, as in orthority/factory.py:229.  A key in both dictionaries is
a TypeError, as is a missing `cam_type`, and an unknown one is a ValueError.  `RpcCamera` has no focal length. -/
def createCamera (int camKw : Dict String (Py ℝ)) : Res CamObj :=
  if int.any (fun q => camKw.has q.1) then .error .typeError
  else
    let kw : Dict String (Py ℝ) := int ++ camKw
    match kw.get? "cam_type" with
    | none => .error .typeError
    | some (.str s) =>
      if s = "rpc" then .error .typeError
      else match FrameType.parse s with
        | none => .error .valueError
        | some t => construct t (kw.erase "cam_type")
    | some _ => .error .valueError

/-- `_camera_to_pixel` of each class, orthority/camera.py:789-792, 1257-1260, 1346-1365 and 1457-1482, with the coefficients in
the order of `_dist_param`. -/
def CamObj.camToPix (c : CamObj) (x : V3) : Fl ℝ × Fl ℝ :=
  match c.type, c.dist with
  | .pinhole, _ => (.val (dotK c.K x).1, .val (dotK c.K x).2)
  | .opencv, d => (.val (cvCamToPix c.K d x).1, .val (cvCamToPix c.K d x).2)
  | .brown, [k1, k2, p1, p2, k3] =>
    let y := brownDistort k1 k2 p1 p2 k3 x
    (.val (dotK c.K y).1, .val (dotK c.K y).2)
  | .fisheye, [k1, k2, k3, k4] => dotKFl c.K (fisheyeDistort k1 k2 k3 k4 (x 0) (x 1))
  | _, _ => (.nan, .nan)

/-- `world_to_pixel` after `update(xyz, opk)`, orthority/camera.py:800-841, of a camera with distortion (the default). -/
def CamObj.worldToPixel (c : CamObj) (xyz : V3) (opk : ℝ × ℝ × ℝ) (X : V3) : Fl ℝ × Fl ℝ :=
  c.camToPix (FrameCam.unitDepth (FrameCam.camCoords (extrinsicR opk) xyz X))

/-! ## Specification -/

/-- The parameters of one camera as docs/file_formats/oty_int.rst describes them. -/
structure CamFile where
  type : FrameType
  width : ℕ
  height : ℕ
  /-- One or two focal lengths. -/
  focal : ℝ ⊕ (ℝ × ℝ)
  sensor : Option (ℝ × ℝ)
  /-- `cx`, `cy` and distortion coefficients, by name. -/
  opt : String → Option ℝ

/-- The python number `v` is the real number `x`. -/
def IsNum (v : Py ℝ) (x : ℝ) : Prop := v = .float x ∨ ∃ n : ℤ, v = .int n ∧ x = n

/-- A parameter by name, zero when it is not given. -/
def CamFile.get (f : CamFile) (n : String) : ℝ := (f.opt n).getD 0

/-- The x and y focal lengths in pixels. -/
def CamFile.focalPx (f : CamFile) : ℝ × ℝ :=
  let xy : ℝ × ℝ := match f.focal with
    | .inl x => (x, x)
    | .inr p => p
  match f.sensor with
  | none => (xy.1 * f.width, xy.2 * f.width)
  | some s => (xy.1 * f.width / s.1, xy.2 * f.height / s.2)

/-- The principal point in pixels. -/
def CamFile.centrePx (f : CamFile) : ℝ × ℝ :=
  (((f.width : ℝ) - 1) / 2 + max (f.width : ℝ) f.height * f.get "cx", ((f.height : ℝ) - 1) / 2 + max (f.width : ℝ) f.height * f.get "cy")

/-- Distorted camera coordinates at unit depth. -/
def CamFile.distorted (f : CamFile) (x y : ℝ) : Fl ℝ × Fl ℝ :=
  match f.type with
  | .pinhole => (.val x, .val y)
  | .brown =>
    let r2 := x ^ 2 + y ^ 2
    let l := 1 + f.get "k1" * r2 + f.get "k2" * r2 ^ 2 + f.get "k3" * r2 ^ 3
    (.val (x * l + 2 * f.get "p1" * x * y + f.get "p2" * (r2 + 2 * x ^ 2)),
      .val (y * l + f.get "p1" * (r2 + 2 * y ^ 2) + 2 * f.get "p2" * x * y))
  | .opencv =>
    let p := cvDistort (["k1", "k2", "p1", "p2", "k3", "k4", "k5", "k6", "s1", "s2", "s3", "s4", "tx", "ty"].map f.get) x y
    (.val p.1, .val p.2)
  | .fisheye =>
    let r := sqrt (x ^ 2 + y ^ 2)
    let a := Real.arctan r
    let ad := a * (1 + f.get "k1" * a ^ 2 + f.get "k2" * a ^ 4 + f.get "k3" * a ^ 6 + f.get "k4" * a ^ 8)
    (.val x * (.val ad / .val r), .val y * (.val ad / .val r))

/-- The pixel of a world point, for a camera at `xyz` with angles `opk`: camera coordinates (`extrinsicR` is the subject of C33) are scaled
to unit depth, distorted, and scaled to pixels. -/
def CamFile.pixel (f : CamFile) (xyz : V3) (opk : ℝ × ℝ × ℝ) (X : V3) : Fl ℝ × Fl ℝ :=
  let c := (extrinsicR opk).transpose.mulVec (X - xyz)
  let d := f.distorted (c 0 / c 2) (c 1 / c 2)
  (.val f.focalPx.1 * d.1 + .val f.centrePx.1, .val f.focalPx.2 * d.2 + .val f.centrePx.2)

/-- A parameter dictionary says what `f` says, in the names and forms that readers give. -/
structure Params (p : Dict String (Py ℝ)) (f : CamFile) : Prop where
  cam_type : Dict.get? p "cam_type" = some (.str f.type.name)
  im_size : Dict.get? p "im_size" = some (.tuple [.int f.width, .int f.height])
  focal_len : match f.focal with
    | .inl x => ∃ v, IsNum v x ∧ Dict.get? p "focal_len" = some v
    | .inr xy => ∃ v w, IsNum v xy.1 ∧ IsNum w xy.2 ∧ Dict.get? p "focal_len" = some (.tuple [v, w])
  sensor_size : match f.sensor with
    | none => Dict.get? p "sensor_size" = none
    | some s => ∃ v w, IsNum v s.1 ∧ IsNum w s.2 ∧ Dict.get? p "sensor_size" = some (.tuple [v, w])
  opt : ∀ n ∈ ["cx", "cy"] ++ coefficients f.type, match f.opt n with
    | none => Dict.get? p n = none
    | some x => ∃ v, IsNum v x ∧ Dict.get? p n = some v
  keys : ∀ n ∈ p.map Prod.fst, n ∈ ["cam_type", "im_size", "focal_len", "sensor_size", "cx", "cy"] ++ coefficients f.type

/-! ## Theorems -/

theorem IsNum.num {v : Py ℝ} {x : ℝ} (h : IsNum v x) : num v = .ok x := by
  rcases h with rfl | ⟨n, rfl, rfl⟩ <;> rfl

theorem get?_append {κ α : Type} [DecidableEq κ] (a b : Dict κ α) (k : κ) :
    Dict.get? (a ++ b : List (κ × α)) k = (Dict.get? a k).or (Dict.get? b k) := by
  unfold Dict.get?
  rw [List.find?_append]
  cases a.find? fun p => decide (p.1 = k) <;> rfl

theorem zeroOr_eq {p kw : Dict String (Py ℝ)} {f : CamFile} (h : Params p f) (hk : ∀ n, n ∈ ["cx", "cy"] ++ coefficients f.type →
    Dict.get? kw n = Dict.get? p n) (n : String) (hn : n ∈ ["cx", "cy"] ++ coefficients f.type) : zeroOr kw n = .ok (f.get n) := by
  have := h.opt n hn
  unfold zeroOr CamFile.get
  rw [hk n hn]
  cases ho : f.opt n with
  | none => rw [ho] at this; simp only at this; rw [this]; rfl
  | some x =>
    rw [ho] at this
    obtain ⟨v, hv, hg⟩ := this
    rw [hg]
    exact hv.num

theorem get?_kw {p camKw : Dict String (Py ℝ)} (hkw : ∀ n ∈ camKw.map Prod.fst, n = "distort" ∨ n = "alpha") (n : String)
    (hn : n ≠ "distort" ∧ n ≠ "alpha" ∧ n ≠ "cam_type") :
    Dict.get? (Dict.erase (p ++ camKw : List (String × Py ℝ)) "cam_type") n = Dict.get? p n := by
  rw [Dict.get?_erase, if_neg (by simpa using Ne.symm hn.2.2), get?_append]
  have : Dict.get? camKw n = none := Dict.get?_none.2 fun hm => by
    rcases hkw n hm with h | h
    · exact hn.1 h
    · exact hn.2.1 h
  rw [this, Option.or_none]

theorem coefficients_ne (t : FrameType) (n : String) (hn : n ∈ ["cx", "cy"] ++ coefficients t) :
    n ≠ "distort" ∧ n ≠ "alpha" ∧ n ≠ "cam_type" := by
  cases t <;> revert n <;> decide

theorem coefficients_ctor (t : FrameType) (n : String)
    (hn : n ∈ ["cam_type", "im_size", "focal_len", "sensor_size", "cx", "cy"] ++ coefficients t) : n = "cam_type" ∨ n ∈ ctorParams t := by
  cases t <;> revert n <;> decide

theorem focalOf_eq {p : Dict String (Py ℝ)} {f : CamFile} (h : Params p f) :
    ∃ v l, Dict.get? p "focal_len" = some v ∧ focalOf v = .ok l ∧
      focalPair l = .ok (match f.focal with | .inl x => (x, x) | .inr p => p) := by
  have := h.focal_len
  cases hf : f.focal with
  | inl x =>
    rw [hf] at this
    obtain ⟨v, hv, hg⟩ := this
    refine ⟨v, [x], hg, ?_, rfl⟩
    rcases hv with rfl | ⟨n, rfl, rfl⟩ <;> rfl
  | inr xy =>
    rw [hf] at this
    obtain ⟨v, w, hv, hw, hg⟩ := this
    refine ⟨_, [xy.1, xy.2], hg, ?_, rfl⟩
    simp only [focalOf, nums, hv.num, hw.num, Res.ok_bind]
    rfl

theorem sensorOf_eq {p : Dict String (Py ℝ)} {f : CamFile} (h : Params p f) :
    sensorOf (Dict.get? p "sensor_size") = .ok (f.sensor.map fun s => [s.1, s.2]) := by
  have := h.sensor_size
  cases hf : f.sensor with
  | none => rw [hf] at this; simp only at this; rw [this]; rfl
  | some s =>
    rw [hf] at this
    obtain ⟨v, w, hv, hw, hg⟩ := this
    rw [hg]
    simp only [sensorOf, nums, hv.num, hw.num, Res.ok_bind]
    rfl

theorem intrinsic_eq (f : CamFile) (l : List ℝ) (hl : focalPair l = .ok (match f.focal with | .inl x => (x, x) | .inr p => p)) :
    getIntrinsic (f.width, f.height) l (f.sensor.map fun s => [s.1, s.2]) (f.get "cx") (f.get "cy") =
      .ok (kMat f.focalPx f.centrePx) := by
  unfold getIntrinsic
  rw [hl]
  have hc : centreXY (f.width, f.height) (f.get "cx") (f.get "cy") = f.centrePx := by
    simp [centreXY, CamFile.centrePx]
  rw [hc]
  cases hs : f.sensor with
  | none =>
    have : f.focalPx = sigmaXY (f.width, f.height) (match f.focal with | .inl x => (x, x) | .inr p => p) none := by
      simp only [CamFile.focalPx, hs, sigmaXY]
    rw [this]
    rfl
  | some s =>
    have : f.focalPx = sigmaXY (f.width, f.height) (match f.focal with | .inl x => (x, x) | .inr p => p) (some s) := by
      simp only [CamFile.focalPx, hs, sigmaXY]
    rw [this]
    rfl

theorem dotK_kMat (s c : ℝ × ℝ) (x y z : ℝ) : dotK (kMat s c) ![x, y, z] = (s.1 * x + c.1 * z, s.2 * y + c.2 * z) := by
  simp [dotK, kMat, Matrix.mulVec, dotProduct, Fin.sum_univ_three]

theorem vec_eq (v : V3) (h : v 2 = 1) : v = ![v 0, v 1, 1] := by
  funext i
  fin_cases i <;> simp [h]

/-- The projection of a camera object with the coefficients of `f` by name. -/
theorem camToPix_eq (f : CamFile) (c : CamObj) (ht : c.type = f.type) (hK : c.K = kMat f.focalPx f.centrePx)
    (kw : Dict String (Py ℝ)) (hz : ∀ n ∈ ["cx", "cy"] ++ coefficients f.type, zeroOr kw n = .ok (f.get n))
    (hd : distParam f.type kw = .ok c.dist) (v : V3) (hv : v 2 = 1) :
    c.camToPix v = (.val f.focalPx.1 * (f.distorted (v 0) (v 1)).1 + .val f.centrePx.1,
      .val f.focalPx.2 * (f.distorted (v 0) (v 1)).2 + .val f.centrePx.2) := by
  obtain ⟨t, im, K, d⟩ := c
  simp only at ht hK hd
  subst hK
  subst ht
  cases hft : f.type with
  | pinhole =>
    unfold CamObj.camToPix CamFile.distorted
    simp only [hft]
    rw [vec_eq v hv, dotK_kMat]
    simp
  | brown =>
    rw [hft] at hd hz
    simp only [distParam, hz "k1" (by decide), hz "k2" (by decide), hz "p1" (by decide), hz "p2" (by decide), hz "k3" (by decide),
      Res.ok_bind] at hd
    cases hd
    unfold CamObj.camToPix CamFile.distorted
    simp only [hft]
    have : brownDistort (f.get "k1") (f.get "k2") (f.get "p1") (f.get "p2") (f.get "k3") v =
        ![v 0 * (1 + f.get "k1" * (v 0 ^ 2 + v 1 ^ 2) + f.get "k2" * (v 0 ^ 2 + v 1 ^ 2) ^ 2 + f.get "k3" * (v 0 ^ 2 + v 1 ^ 2) ^ 3) +
            2 * f.get "p1" * v 0 * v 1 + f.get "p2" * (v 0 ^ 2 + v 1 ^ 2 + 2 * v 0 ^ 2),
          v 1 * (1 + f.get "k1" * (v 0 ^ 2 + v 1 ^ 2) + f.get "k2" * (v 0 ^ 2 + v 1 ^ 2) ^ 2 + f.get "k3" * (v 0 ^ 2 + v 1 ^ 2) ^ 3) +
            f.get "p1" * (v 0 ^ 2 + v 1 ^ 2 + 2 * v 1 ^ 2) + 2 * f.get "p2" * v 0 * v 1, 1] := by
      funext i
      fin_cases i
      · simp [brownDistort]; ring
      · simp [brownDistort]; ring
      · simp [brownDistort, hv]
    rw [this, dotK_kMat]
    simp
  | opencv =>
    rw [hft] at hd hz
    simp only [distParam, hz "k1" (by decide), hz "k2" (by decide), hz "p1" (by decide), hz "p2" (by decide), hz "k3" (by decide),
      hz "k4" (by decide), hz "k5" (by decide), hz "k6" (by decide), hz "s1" (by decide), hz "s2" (by decide), hz "s3" (by decide),
      hz "s4" (by decide), hz "tx" (by decide), hz "ty" (by decide), Res.ok_bind] at hd
    cases hd
    unfold CamObj.camToPix CamFile.distorted
    simp only [hft]
    rw [C45_trunc]
    simp only [cvCamToPix, hv, div_one, dotK_kMat, cvOrder, List.map_cons, List.map_nil]
    simp
  | fisheye =>
    rw [hft] at hd hz
    simp only [distParam, hz "k1" (by decide), hz "k2" (by decide), hz "k3" (by decide), hz "k4" (by decide), Res.ok_bind] at hd
    cases hd
    unfold CamObj.camToPix CamFile.distorted
    simp only [hft, fisheyeDistort, C45_fisheye, axisDist]
    simp only [Fl.val_div]
    split
    · simp [dotKFl]
    · simp [dotKFl, kMat]

theorem construct_eq (kw : Dict String (Py ℝ)) (t : FrameType) (hkeys : ∀ n ∈ kw.map Prod.fst, n ∈ ctorParams t)
    (size focal : Py ℝ) (hs : Dict.get? kw "im_size" = some size) (hf : Dict.get? kw "focal_len" = some focal)
    (im : ℕ × ℕ) (him : imSizeOf size = .ok im) (l : List ℝ) (hl : focalOf focal = .ok l)
    (s : Option (List ℝ)) (hss : sensorOf (Dict.get? kw "sensor_size") = .ok s) (cx cy : ℝ) (hcx : zeroOr kw "cx" = .ok cx)
    (hcy : zeroOr kw "cy" = .ok cy) (K : M3) (hK : getIntrinsic im l s cx cy = .ok K) (d : List ℝ)
    (hd : distParam t kw = .ok d) : construct t kw = if K.det = 0 then .error .valueError else .ok ⟨t, im, K, d⟩ := by
  unfold construct
  have : (kw.any fun q => decide (q.1 ∉ ctorParams t)) = false := by
    rw [List.any_eq_false]
    intro q hq
    simpa using hkeys q.1 (List.mem_map.2 ⟨q, hq, rfl⟩)
  rw [this, hs, hf]
  simp only [Bool.false_eq_true, if_false, him, hl, hss, hcx, hcy, hK, Res.ok_bind, hd]
  rfl

theorem distParam_ok (t : FrameType) (kw : Dict String (Py ℝ)) (g : String → ℝ) (hz : ∀ n ∈ coefficients t, zeroOr kw n = .ok (g n)) :
    ∃ d, distParam t kw = .ok d := by
  cases t with
  | pinhole => exact ⟨_, rfl⟩
  | brown =>
    simp only [distParam, hz "k1" (by decide), hz "k2" (by decide), hz "p1" (by decide), hz "p2" (by decide), hz "k3" (by decide),
      Res.ok_bind]
    exact ⟨_, rfl⟩
  | opencv =>
    simp only [distParam, hz "k1" (by decide), hz "k2" (by decide), hz "p1" (by decide), hz "p2" (by decide), hz "k3" (by decide),
      hz "k4" (by decide), hz "k5" (by decide), hz "k6" (by decide), hz "s1" (by decide), hz "s2" (by decide), hz "s3" (by decide),
      hz "s4" (by decide), hz "tx" (by decide), hz "ty" (by decide), Res.ok_bind]
    exact ⟨_, rfl⟩
  | fisheye =>
    simp only [distParam, hz "k1" (by decide), hz "k2" (by decide), hz "k3" (by decide), hz "k4" (by decide), Res.ok_bind]
    exact ⟨_, rfl⟩

theorem parse_name' (t : FrameType) : t.name ≠ "rpc" ∧ FrameType.parse t.name = some t := by
  cases t <;> decide

/-- The camera object that parameters make. -/
theorem createCamera_eq (p camKw : Dict String (Py ℝ)) (f : CamFile) (h : Params p f)
    (hkw : ∀ n ∈ camKw.map Prod.fst, n = "distort" ∨ n = "alpha") :
    ∃ kw d, (∀ n ∈ ["cx", "cy"] ++ coefficients f.type, zeroOr kw n = .ok (f.get n)) ∧ distParam f.type kw = .ok d ∧
      createCamera p camKw = if (kMat f.focalPx f.centrePx).det = 0 then .error .valueError
        else .ok ⟨f.type, (f.width, f.height), kMat f.focalPx f.centrePx, d⟩ := by
  have hany : (p.any fun q => camKw.has q.1) = false := by
    rw [List.any_eq_false]
    intro q hq hh
    have hm : q.1 ∈ camKw.map Prod.fst := by
      by_contra hn
      rw [Dict.has, Dict.get?_none.2 hn] at hh
      simp at hh
    have h1 := h.keys q.1 (List.mem_map.2 ⟨q, hq, rfl⟩)
    rcases hkw _ hm with e | e <;> rw [e] at h1 <;> revert h1 <;> cases f.type <;> decide
  have hget := fun n hn => get?_kw (p := p) hkw n hn
  obtain ⟨v, l, hv, hl, hl2⟩ := focalOf_eq h
  let kw : Dict String (Py ℝ) := Dict.erase (p ++ camKw : List (String × Py ℝ)) "cam_type"
  have hz : ∀ n ∈ ["cx", "cy"] ++ coefficients f.type, zeroOr kw n = .ok (f.get n) :=
    fun n hn => zeroOr_eq h (fun m hm => hget m (coefficients_ne _ m hm)) n hn
  obtain ⟨d, hd⟩ := distParam_ok f.type kw f.get fun n hn => hz n (List.mem_append_right _ hn)
  have hct : Dict.get? (p ++ camKw : List (String × Py ℝ)) "cam_type" = some (.str f.type.name) := by
    rw [get?_append, h.cam_type]; rfl
  have hc := construct_eq kw f.type (by
      intro n hn
      obtain ⟨q, hq, rfl⟩ := List.mem_map.1 hn
      obtain ⟨hq1, hq2⟩ := List.mem_filter.1 hq
      rcases List.mem_append.1 hq1 with h1 | h1
      · rcases coefficients_ctor _ _ (h.keys q.1 (List.mem_map.2 ⟨q, h1, rfl⟩)) with h2 | h2
        · rw [h2] at hq2; simp at hq2
        · exact h2
      · rcases hkw q.1 (List.mem_map.2 ⟨q, h1, rfl⟩) with h2 | h2 <;> rw [h2] <;> cases f.type <;> decide)
    _ _ ((hget "im_size" (by decide)).trans h.im_size) ((hget "focal_len" (by decide)).trans hv) (f.width, f.height) rfl l hl _
    (by rw [hget "sensor_size" (by decide)]; exact sensorOf_eq h) _ _ (hz "cx" (by simp)) (hz "cy" (by simp)) _ (intrinsic_eq f l hl2) d hd
  refine ⟨kw, d, hz, hd, ?_⟩
  unfold createCamera
  rw [hany]
  simp only [Bool.false_eq_true, if_false, hct]
  rw [if_neg (parse_name' _).1, (parse_name' _).2]
  exact hc

theorem createCamera_ok (p camKw : Dict String (Py ℝ)) (f : CamFile) (h : Params p f)
    (hkw : ∀ n ∈ camKw.map Prod.fst, n = "distort" ∨ n = "alpha") (hf : f.focalPx.1 ≠ 0 ∧ f.focalPx.2 ≠ 0) :
    ∃ kw d, (∀ n ∈ ["cx", "cy"] ++ coefficients f.type, zeroOr kw n = .ok (f.get n)) ∧ distParam f.type kw = .ok d ∧
      createCamera p camKw = .ok ⟨f.type, (f.width, f.height), kMat f.focalPx f.centrePx, d⟩ := by
  obtain ⟨kw, d, hz, hd, hc⟩ := createCamera_eq p camKw f h hkw
  exact ⟨kw, d, hz, hd, by rw [hc, if_neg (by simp [kMat, Matrix.det_fin_three]; exact hf)]⟩

/-- C81: parameters with a focal length of zero, or an empty image, are refused with a `ValueError`. -/
theorem C81_singular (p camKw : Dict String (Py ℝ)) (f : CamFile) (h : Params p f)
    (hkw : ∀ n ∈ camKw.map Prod.fst, n = "distort" ∨ n = "alpha")
    (hf : f.width = 0 ∨ f.focal = .inl 0 ∨ ∃ x, f.focal = .inr (0, x) ∨ f.focal = .inr (x, 0)) :
    createCamera p camKw = .error .valueError := by
  obtain ⟨kw, d, -, -, hc⟩ := createCamera_eq p camKw f h hkw
  rw [hc, if_pos]
  have : f.focalPx.1 = 0 ∨ f.focalPx.2 = 0 := by
    unfold CamFile.focalPx
    rcases hf with hf | hf | ⟨x, hf | hf⟩ <;> cases f.sensor <;> simp [hf]
  simpa [kMat, Matrix.det_fin_three] using this

/-- C81: parameters of a camera, as the readers give them, with or without camera options, make a camera that projects world points as
documented: each parameter has its effect by name, whatever the order of the dictionary, and parameters that are not given are zero. -/
theorem C81_camera (p camKw : Dict String (Py ℝ)) (f : CamFile) (h : Params p f)
    (hkw : ∀ n ∈ camKw.map Prod.fst, n = "distort" ∨ n = "alpha") (hf : f.focalPx.1 ≠ 0 ∧ f.focalPx.2 ≠ 0) :
    ∃ c, createCamera p camKw = .ok c ∧ c.imSize = (f.width, f.height) ∧
      ∀ xyz opk X, ((extrinsicR opk).transpose.mulVec (X - xyz)) 2 ≠ 0 → c.worldToPixel xyz opk X = f.pixel xyz opk X := by
  obtain ⟨kw, d, hz, hd, hc⟩ := createCamera_ok p camKw f h hkw hf
  refine ⟨_, hc, rfl, ?_⟩
  intro xyz opk X hdep
  unfold CamObj.worldToPixel
  rw [camToPix_eq f _ rfl rfl kw hz hd _ (by unfold FrameCam.unitDepth FrameCam.camCoords; exact div_self hdep)]
  rfl

/-- The camera dictionary `d` of an Orthority interior parameter file says `f`. -/
structure OtyCam (lower : String → String) (d : Dict Key (Py ℝ)) (f : CamFile) : Prop where
  type : ∃ s, Dict.get? d (.str "type") = some (.str s) ∧ lower s = f.type.name
  im_size : Dict.get? d (.str "im_size") = some (.list [.int f.width, .int f.height])
  focal_len : match f.focal with
    | .inl x => ∃ v, IsNum v x ∧ Dict.get? d (.str "focal_len") = some v
    | .inr xy => ∃ v w, IsNum v xy.1 ∧ IsNum w xy.2 ∧ Dict.get? d (.str "focal_len") = some (.list [v, w])
  sensor_size : match f.sensor with
    | none => Dict.get? d (.str "sensor_size") = none
    | some s => ∃ v w, IsNum v s.1 ∧ IsNum w s.2 ∧ Dict.get? d (.str "sensor_size") = some (.list [v, w])
  opt : ∀ n ∈ ["cx", "cy"] ++ coefficients f.type, match f.opt n with
    | none => Dict.get? d (.str n) = none
    | some x => ∃ v, IsNum v x ∧ Dict.get? d (.str n) = some v

theorem name_inj {s t : FrameType} (h : s.name = t.name) : s = t := by
  cases s <;> cases t <;> first | rfl | exact absurd h (by decide)

theorem coefficients_rest (t : FrameType) (n : String) (hn : n ∈ ["cx", "cy"] ++ coefficients t) :
    n ∉ ["cam_type", "type", "im_size", "focal_len", "name", "sensor_size"] := by
  cases t <;> revert n <;> decide

theorem mem_get? {κ α : Type} [DecidableEq κ] {d : Dict κ α} {k : κ} (h : k ∈ d.map Prod.fst) : Dict.get? d k ≠ none :=
  fun hn => Dict.get?_none.1 hn h

/-- C81: an Orthority interior parameter file gives the camera that it describes. -/
theorem C81_oty (lower : String → String) (d : Dict Key (Py ℝ)) (hd : Dict.Ok d) (f : CamFile) (h : OtyCam lower d f)
    (p : Dict String (Py ℝ)) (hp : parseIntParam lower d = .ok p) (camKw : Dict String (Py ℝ))
    (hkw : ∀ n ∈ camKw.map Prod.fst, n = "distort" ∨ n = "alpha") (hf : f.focalPx.1 ≠ 0 ∧ f.focalPx.2 ≠ 0) :
    ∃ c, createCamera p camKw = .ok c ∧ c.imSize = (f.width, f.height) ∧
      ∀ xyz opk X, ((extrinsicR opk).transpose.mulVec (X - xyz)) 2 ≠ 0 → c.worldToPixel xyz opk X = f.pixel xyz opk X := by
  obtain ⟨t, hsay, hkeys⟩ := C67_says lower d hd p hp
  obtain ⟨s, hs, hls⟩ := h.type
  obtain ⟨s', hs', hls', hct⟩ := hsay.cam_type
  have ht : t = f.type := by
    rw [hs] at hs'
    cases hs'
    exact name_inj (hls'.symm.trans hls)
  subst ht
  refine C81_camera p camKw f ⟨hct, ?_, ?_, ?_, ?_, ?_⟩ hkw hf
  · obtain ⟨v, l, hv, hl, hg⟩ := hsay.im_size
    rw [h.im_size] at hv
    cases hv
    rw [hg, hl _ rfl]
  · have hfo := h.focal_len
    obtain ⟨v, g, hv, hg, h1, h2⟩ := hsay.focal_len
    cases hff : f.focal with
    | inl x =>
      rw [hff] at hfo
      obtain ⟨w, hw, hdw⟩ := hfo
      rw [hv] at hdw
      cases hdw
      refine ⟨v, hw, ?_⟩
      rw [hg, h2]
      rintro l rfl
      rcases hw with hw | ⟨n, hw, -⟩ <;> cases hw
    | inr xy =>
      rw [hff] at hfo
      obtain ⟨a, b, ha, hb, hdw⟩ := hfo
      rw [hv] at hdw
      cases hdw
      exact ⟨a, b, ha, hb, by rw [hg, h1 _ rfl]⟩
  · have hso := h.sensor_size
    cases hss : f.sensor with
    | none => rw [hss] at hso; exact hsay.sensor_size.1 hso
    | some sz =>
      rw [hss] at hso
      obtain ⟨a, b, ha, hb, hdw⟩ := hso
      exact ⟨a, b, ha, hb, hsay.sensor_size.2 _ hdw⟩
  · intro n hn
    have := h.opt n hn
    rw [hsay.rest n (coefficients_rest _ n hn)]
    exact this
  · intro n hn
    by_cases h1 : n ∈ ["cam_type", "im_size", "focal_len", "sensor_size"]
    · refine List.mem_append_left _ ?_
      simp only [List.mem_cons, List.not_mem_nil, or_false] at h1 ⊢
      tauto
    · have h2 : n ≠ "type" := fun e => mem_get? hn (e ▸ hsay.gone.1)
      have h3 : n ≠ "name" := fun e => mem_get? hn (e ▸ hsay.gone.2)
      have h4 : n ∉ ["cam_type", "type", "im_size", "focal_len", "name", "sensor_size"] := by
        simp only [List.mem_cons, List.not_mem_nil, or_false] at h1 ⊢
        tauto
      have h5 := mem_get? hn
      rw [hsay.rest n h4] at h5
      have h6 : Key.str n ∈ d.map Prod.fst := by
        by_contra hc
        exact h5 (Dict.get?_none.2 hc)
      obtain ⟨m, hm, hdoc⟩ := hkeys _ h6
      cases hm
      rcases hdoc with hdoc | hdoc
      · simp only [List.mem_cons, List.not_mem_nil, or_false, List.mem_append] at h4 hdoc ⊢
        tauto
      · exact List.mem_append_right _ hdoc

/-- The camera dictionary `d` of an OpenSfM / OpenDroneMap file says `f`.  `proj` is the projection type, and the principal point is
`c_x` and `c_y`. -/
structure OsfmCam (py : Readers.PyFuns ℝ) (d : Dict Key (Py ℝ)) (f : CamFile) : Prop where
  type : ∃ s, Dict.get? d (.str "projection_type") = some (.str s) ∧ Readers.fromOdm py (py.lower s) = some f.type
  size : Dict.get? d (.str "width") = some (.int f.width) ∧ Dict.get? d (.str "height") = some (.int f.height)
  focal : match f.focal with
    | .inl x => ∃ v, IsNum v x ∧ Dict.get? d (.str "focal") = some v
    | .inr xy => Dict.get? d (.str "focal") = none ∧ ∃ v w, IsNum v xy.1 ∧ IsNum w xy.2 ∧
      Dict.get? d (.str "focal_x") = some v ∧ Dict.get? d (.str "focal_y") = some w
  sensor : f.sensor = none ∧ Dict.get? d (.str "sensor_size") = none
  centre : ∀ n m, (n, m) ∈ [("cx", "c_x"), ("cy", "c_y")] → Dict.get? d (.str n) = none ∧ match f.opt n with
    | none => Dict.get? d (.str m) = none
    | some x => ∃ v, IsNum v x ∧ Dict.get? d (.str m) = some v
  opt : ∀ n ∈ coefficients f.type, match f.opt n with
    | none => Dict.get? d (.str n) = none
    | some x => ∃ v, IsNum v x ∧ Dict.get? d (.str n) = some v

theorem pixel_focal (f : CamFile) (x : ℝ) (h : f.focal = .inr (x, x)) (xyz : V3) (opk : ℝ × ℝ × ℝ) (X : V3) :
    ({ f with focal := .inl x } : CamFile).pixel xyz opk X = f.pixel xyz opk X := by
  have : ({ f with focal := .inl x } : CamFile).focalPx = f.focalPx := by
    unfold CamFile.focalPx
    simp only [h]
  unfold CamFile.pixel
  rw [this]
  rfl

theorem coefficients_osfm (t : FrameType) (n : String) (hn : n ∈ coefficients t) :
    n ∉ ["cam_type", "projection_type", "im_size", "width", "height", "focal_len", "focal", "focal_x", "focal_y", "cx", "cy", "c_x",
      "c_y"] := by
  cases t <;> revert n <;> decide

/-- C81: an OpenSfM or OpenDroneMap file gives the camera that it describes, whether it has one focal length or two, when python
compares numbers by value. -/
theorem C81_osfm (py : Readers.PyFuns ℝ) (hpy : ∀ v w x y, IsNum v x → IsNum w y → (py.eq v w = true ↔ x = y))
    (d : Dict Key (Py ℝ)) (hd : Dict.Ok d) (f : CamFile) (h : OsfmCam py d f)
    (p : Dict String (Py ℝ)) (hp : Readers.parseOsfmParam py d = .ok p) (camKw : Dict String (Py ℝ))
    (hkw : ∀ n ∈ camKw.map Prod.fst, n = "distort" ∨ n = "alpha") (hf : f.focalPx.1 ≠ 0 ∧ f.focalPx.2 ≠ 0) :
    ∃ c, createCamera p camKw = .ok c ∧ c.imSize = (f.width, f.height) ∧
      ∀ xyz opk X, ((extrinsicR opk).transpose.mulVec (X - xyz)) 2 ≠ 0 → c.worldToPixel xyz opk X = f.pixel xyz opk X := by
  obtain ⟨s, t, hs, ht, hct, hsay, hkeys⟩ := Readers.C24_interior py d hd p hp
  obtain ⟨s', hs', ht'⟩ := h.type
  have htt : t = f.type := by
    rw [hs] at hs'
    cases hs'
    rw [ht] at ht'
    exact Option.some.inj ht'
  subst htt
  have hsize : Dict.get? p "im_size" = some (.tuple [.int f.width, .int f.height]) := by
    obtain ⟨w, hh, h1, h2, h3⟩ := hsay.im_size
    rw [h.size.1] at h1
    rw [h.size.2] at h2
    cases h1
    cases h2
    exact h3
  have hsens : Dict.get? p "sensor_size" = none := by rw [hsay.rest _ (by decide)]; exact h.sensor.2
  have hopt : ∀ n ∈ ["cx", "cy"] ++ coefficients f.type, match f.opt n with
      | none => Dict.get? p n = none
      | some x => ∃ v, IsNum v x ∧ Dict.get? p n = some v := by
    intro n hn
    rcases List.mem_append.1 hn with h1 | h1
    · simp only [List.mem_cons, List.not_mem_nil, or_false] at h1
      rcases h1 with rfl | rfl
      · obtain ⟨h2, h3⟩ := h.centre "cx" "c_x" (by decide)
        rw [hsay.cx, h2, Option.none_or]
        exact h3
      · obtain ⟨h2, h3⟩ := h.centre "cy" "c_y" (by decide)
        rw [hsay.cy, h2, Option.none_or]
        exact h3
    · rw [hsay.rest n (coefficients_osfm _ n h1)]
      exact h.opt n h1
  have hk : ∀ n ∈ p.map Prod.fst, n ∈ ["cam_type", "im_size", "focal_len", "sensor_size", "cx", "cy"] ++ coefficients f.type := by
    intro n hn
    by_cases h1 : n ∈ ["cam_type", "im_size", "focal_len", "cx", "cy"]
    · refine List.mem_append_left _ ?_
      simp only [List.mem_cons, List.not_mem_nil, or_false] at h1 ⊢
      tauto
    · have h2 : n ∉ ["projection_type", "width", "height", "focal", "focal_x", "focal_y", "c_x", "c_y"] :=
        fun hm => mem_get? hn (hsay.gone n hm)
      have h3 := mem_get? hn
      rw [hsay.rest n (by simp only [List.mem_cons, List.not_mem_nil, or_false] at h1 h2 ⊢; tauto)] at h3
      have h6 : Key.str n ∈ d.map Prod.fst := by
        by_contra hc
        exact h3 (Dict.get?_none.2 hc)
      obtain ⟨m, hm, hdoc⟩ := hkeys _ h6
      cases hm
      rcases hdoc with hdoc | hdoc
      · simp only [List.mem_cons, List.not_mem_nil, or_false, List.mem_append] at h1 h2 hdoc ⊢
        tauto
      · exact List.mem_append_right _ hdoc
  have hfo := h.focal
  cases hff : f.focal with
  | inl x =>
    rw [hff] at hfo
    obtain ⟨v, hv, hg⟩ := hfo
    exact C81_camera p camKw f ⟨hct, hsize, by rw [hff]; exact ⟨v, hv, hsay.focal v hg⟩, by rw [h.sensor.1]; exact hsens, hopt, hk⟩ hkw hf
  | inr xy =>
    rw [hff] at hfo
    obtain ⟨h0, v, w, hv, hw, h1, h2⟩ := hfo
    obtain ⟨x', y', h3, h4, h5⟩ := hsay.focal_xy h0
    rw [h1] at h3
    rw [h2] at h4
    cases h3
    cases h4
    by_cases he : py.eq v w = true
    · rw [if_pos he] at h5
      have hxy := (hpy v w _ _ hv hw).1 he
      have hf0 : f.focal = .inr (xy.1, xy.1) := by rw [hff]; congr 1; exact Prod.ext rfl hxy.symm
      have hpx : ({ f with focal := .inl xy.1 } : CamFile).focalPx = f.focalPx := by
        unfold CamFile.focalPx
        simp only [hf0]
      obtain ⟨c, c1, c2, c3⟩ := C81_camera p camKw { f with focal := .inl xy.1 }
        ⟨hct, hsize, ⟨v, hv, h5⟩, by simp only [h.sensor.1]; exact hsens, hopt, hk⟩ hkw (by rw [hpx]; exact hf)
      exact ⟨c, c1, c2, fun xyz opk X hdep => (c3 xyz opk X hdep).trans (pixel_focal f _ hf0 xyz opk X)⟩
    · rw [if_neg he] at h5
      exact C81_camera p camKw f ⟨hct, hsize, by rw [hff]; exact ⟨v, w, hv, hw, h5⟩, by rw [h.sensor.1]; exact hsens, hopt, hk⟩ hkw hf

/-- C81: a parameter that the camera type does not have, or one that is given twice, is a TypeError, and an unknown camera type a
ValueError. -/
theorem C81_refuses (p camKw : Dict String (Py ℝ)) :
    (∀ t : FrameType, Dict.get? p "cam_type" = some (.str t.name) →
      ∀ n ∈ p.map Prod.fst, n ∉ ["cam_type", "im_size", "focal_len", "sensor_size", "cx", "cy", "xyz", "opk", "distort", "alpha"] →
        n ∉ coefficients t → createCamera p camKw = .error .typeError) ∧
    (∀ n ∈ p.map Prod.fst, n ∈ camKw.map Prod.fst → createCamera p camKw = .error .typeError) ∧
    (∀ s, Dict.get? p "cam_type" = some (.str s) → s ∉ ["pinhole", "brown", "fisheye", "opencv", "rpc"] →
      (∀ n ∈ p.map Prod.fst, n ∉ camKw.map Prod.fst) → createCamera p camKw = .error .valueError) := by
  have hno : ∀ {q : String × Py ℝ}, q.1 ∈ camKw.map Prod.fst ↔ camKw.has q.1 = true := by
    intro q
    rw [Dict.has, Option.isSome_iff_ne_none, ne_eq, Dict.get?_none, not_not]
  refine ⟨?_, ?_, ?_⟩
  · intro t ht n hn h1 h2
    unfold createCamera
    split
    · rfl
    simp only
    rw [get?_append, ht, Option.some_or]
    simp only
    rw [if_neg (parse_name' t).1, (parse_name' t).2]
    simp only
    unfold construct
    obtain ⟨q, hq, rfl⟩ := List.mem_map.1 hn
    rw [if_pos]
    rw [List.any_eq_true]
    refine ⟨q, List.mem_filter.2 ⟨List.mem_append_left _ hq, ?_⟩, ?_⟩
    · simp only [List.mem_cons, not_or] at h1
      simpa using h1.1
    · rw [decide_eq_true_iff]
      intro hc
      cases t <;> simp only [ctorParams, coefficients, List.mem_cons, List.not_mem_nil, or_false] at hc h1 h2 <;> tauto
  · intro n hn hm
    obtain ⟨q, hq, rfl⟩ := List.mem_map.1 hn
    unfold createCamera
    rw [if_pos (List.any_eq_true.2 ⟨q, hq, hno.1 hm⟩)]
  · intro s hs hn hd
    unfold createCamera
    rw [if_neg]
    · simp only
      rw [get?_append, hs, Option.some_or]
      simp only [List.mem_cons, List.not_mem_nil, or_false, not_or] at hn
      simp only
      rw [if_neg hn.2.2.2.2]
      have : FrameType.parse s = none := by
        unfold FrameType.parse
        rw [if_neg hn.1, if_neg hn.2.1, if_neg hn.2.2.1, if_neg hn.2.2.2.1]
      rw [this]
    · intro hc
      obtain ⟨q, hq, hh⟩ := List.any_eq_true.1 hc
      exact hd q.1 (List.mem_map.2 ⟨q, hq, rfl⟩) (hno.2 hh)

/-- C81: a sensor size that is one number, or text, is refused. -/
theorem C81_sensor (p camKw : Dict String (Py ℝ)) (v : Py ℝ) (hv : Dict.get? p "sensor_size" = some v)
    (hn : (∃ x, IsNum v x) ∨ ∃ s, v = .str s) : ∃ e, createCamera p camKw = .error e := by
  have hs : sensorOf (some v) = .error .typeError := by
    rcases hn with ⟨x, h | ⟨z, h, -⟩⟩ | ⟨s, rfl⟩
    · subst h; rfl
    · subst h; rfl
    · rfl
  have hc : ∀ t, ∃ e, construct t ((p ++ camKw).erase "cam_type") = .error e := by
    intro t
    have hg : Dict.get? (Dict.erase (p ++ camKw) "cam_type") "sensor_size" = some v := by
      rw [Dict.get?_erase, if_neg (by decide), get?_append, hv, Option.some_or]
    unfold construct
    split
    · exact ⟨_, rfl⟩
    split
    · rw [hg, hs]
      cases imSizeOf _ with
      | error e => exact ⟨e, rfl⟩
      | ok im =>
        cases focalOf _ with
        | error e => exact ⟨e, rfl⟩
        | ok f => exact ⟨_, rfl⟩
    · exact ⟨_, rfl⟩
  unfold createCamera
  split
  · exact ⟨_, rfl⟩
  simp only
  split
  · exact ⟨_, rfl⟩
  · split
    · exact ⟨_, rfl⟩
    split
    · exact ⟨_, rfl⟩
    · exact hc _
  · exact ⟨_, rfl⟩

/-- C81: the image size of a camera is that of its parameters, with any fractions cut off, whether they are integers or not; further values are
ignored. -/
theorem C81_im_size (p camKw : Dict String (Py ℝ)) (c : CamObj) (h : createCamera p camKw = .ok c) (v w : Py ℝ) (rest : List (Py ℝ))
    (hg : Dict.get? p "im_size" = some (.list (v :: w :: rest)) ∨ Dict.get? p "im_size" = some (.tuple (v :: w :: rest)))
    (x y : ℝ) (hv : IsNum v x) (hw : IsNum w y) (hx : 0 ≤ x) (hy : 0 ≤ y) : c.imSize = (⌊x⌋₊, ⌊y⌋₊) := by
  have int : ∀ v x, IsNum v x → 0 ≤ x → ∃ z, pyInt v = .ok z ∧ z.toNat = ⌊x⌋₊ := by
    rintro v x (rfl | ⟨n, rfl, rfl⟩) hx
    · refine ⟨⌊x⌋, ?_, Int.floor_toNat x⟩
      simp [pyInt, hx]
    · exact ⟨n, rfl, by rw [← Int.floor_toNat, Int.floor_intCast]⟩
  obtain ⟨a, ha, ha'⟩ := int v x hv hx
  obtain ⟨b, hb, hb'⟩ := int w y hw hy
  have him : ∀ q, (q = .list (v :: w :: rest) ∨ q = .tuple (v :: w :: rest)) → imSizeOf q = .ok (⌊x⌋₊, ⌊y⌋₊) := by
    rintro q (rfl | rfl) <;> · unfold imSizeOf; simp [item, ha, hb, ha', hb', ok_bind, pure, Except.pure]
  have hc : ∀ t, construct t ((p ++ camKw).erase "cam_type") = .ok c → c.imSize = (⌊x⌋₊, ⌊y⌋₊) := by
    intro t h
    unfold construct at h
    split at h
    · cases h
    split at h
    · rename_i size focal h1 h2
      rw [Dict.get?_erase, if_neg (by decide), get?_append] at h1
      rw [him size (by
        rcases hg with hg | hg
        · rw [hg] at h1; cases h1; exact .inl rfl
        · rw [hg] at h1; cases h1; exact .inr rfl)] at h
      simp only [ok_bind] at h
      cases h3 : focalOf focal with
      | error e => rw [h3] at h; cases h
      | ok f =>
      rw [h3] at h
      simp only [ok_bind] at h
      cases h4 : sensorOf (Dict.get? (Dict.erase (p ++ camKw) "cam_type") "sensor_size") with
      | error e => rw [h4] at h; cases h
      | ok s =>
      rw [h4] at h
      simp only [ok_bind] at h
      cases h5 : zeroOr (Dict.erase (p ++ camKw) "cam_type") "cx" with
      | error e => rw [h5] at h; cases h
      | ok cx =>
      rw [h5] at h
      simp only [ok_bind] at h
      cases h6 : zeroOr (Dict.erase (p ++ camKw) "cam_type") "cy" with
      | error e => rw [h6] at h; cases h
      | ok cy =>
      rw [h6] at h
      simp only [ok_bind] at h
      cases h7 : getIntrinsic (⌊x⌋₊, ⌊y⌋₊) f s cx cy with
      | error e => rw [h7] at h; cases h
      | ok K =>
      rw [h7] at h
      simp only [ok_bind] at h
      split_ifs at h
      cases h8 : distParam t (Dict.erase (p ++ camKw) "cam_type") with
      | error e => rw [h8] at h; cases h
      | ok d =>
      rw [h8] at h
      cases h
      rfl
    · cases h
  unfold createCamera at h
  split at h
  · cases h
  simp only at h
  split at h
  · cases h
  · split at h
    · cases h
    split at h
    · cases h
    · exact hc _ h
  · cases h

/-- A pinhole camera of 10 by 5 pixels with focal length 1 and no sensor size. -/
def demoFile : CamFile := ⟨.pinhole, 10, 5, .inl 1, none, fun _ => none⟩

def demoParams : Dict String (Py ℝ) :=
  [("cam_type", .str "pinhole"), ("im_size", .tuple [.int 10, .int 5]), ("focal_len", .int 1)]

theorem demo_params : Params demoParams demoFile := by
  refine ⟨rfl, rfl, ⟨.int 1, Or.inr ⟨1, rfl, by norm_num⟩, rfl⟩, rfl, ?_, ?_⟩
  · intro n hn
    have : n = "cx" ∨ n = "cy" := by
      revert n
      decide
    rcases this with rfl | rfl <;> exact rfl
  · intro n hn
    simp only [demoParams, List.map_cons, List.map_nil, List.mem_cons, List.not_mem_nil, or_false] at hn
    rcases hn with rfl | rfl | rfl <;> decide

theorem demo_focal : demoFile.focalPx.1 ≠ 0 ∧ demoFile.focalPx.2 ≠ 0 := by
  simp [CamFile.focalPx, demoFile]

/-- C81: values of the wrong kind pass the reader, and end in other exceptions when the camera is made: text for `cx` is a TypeError, and
an image size of one value an IndexError.  Values after the second of an image size are ignored. -/
theorem C81_values_fails :
    (∃ d p, parseIntParam id d = .ok p ∧ Dict.get? d (.str "cx") = some (.str "abc") ∧ createCamera p [] = .error .typeError) ∧
    (∃ d p, parseIntParam id d = .ok p ∧ Dict.get? d (.str "im_size") = some (.list [.int 10]) ∧
      createCamera p [] = .error .indexError) ∧
    (∃ d p c, parseIntParam id d = .ok p ∧ Dict.get? d (.str "im_size") = some (.list [.int 10, .int 5, .int 7]) ∧
      createCamera p [] = .ok c ∧ c.imSize = (10, 5)) := by
  refine ⟨⟨[(.str "type", .str "pinhole"), (.str "im_size", .list [.int 10, .int 5]), (.str "focal_len", .int 1), (.str "cx", .str "abc")],
    [("cam_type", .str "pinhole"), ("im_size", .tuple [.int 10, .int 5]), ("focal_len", .int 1), ("cx", .str "abc")], rfl, rfl, rfl⟩,
    ⟨[(.str "type", .str "pinhole"), (.str "im_size", .list [.int 10]), (.str "focal_len", .int 1)],
    [("cam_type", .str "pinhole"), ("im_size", .tuple [.int 10]), ("focal_len", .int 1)], rfl, rfl, rfl⟩,
    ?_⟩
  obtain ⟨c, h1, h2, -⟩ := C81_camera demoParams [] demoFile demo_params (fun _ h => absurd h List.not_mem_nil) demo_focal
  refine ⟨[(.str "type", .str "pinhole"), (.str "im_size", .list [.int 10, .int 5, .int 7]), (.str "focal_len", .int 1)],
    [("cam_type", .str "pinhole"), ("im_size", .tuple [.int 10, .int 5, .int 7]), ("focal_len", .int 1)], c, rfl, rfl, ?_, h2⟩
  rw [← h1]
  rfl

/-! ## Cases that meet the hypotheses -/

/-- The demonstration camera, with a camera option. -/
example : ∃ c, createCamera demoParams [("distort", .bool true)] = .ok c ∧ c.imSize = (10, 5) := by
  obtain ⟨c, h1, h2, -⟩ := C81_camera demoParams [("distort", .bool true)] demoFile demo_params
    (fun n h => Or.inl (List.mem_singleton.1 h)) demo_focal
  exact ⟨c, h1, h2⟩

/-- A Brown camera of an OpenSfM file with two equal focal lengths, a principal point and a coefficient. -/
example (py : Readers.PyFuns ℝ) (hl : py.lower "brown" = "brown") (ht : Readers.fromOdm py "brown" = some .brown) :
    OsfmCam py [(.str "projection_type", .str "brown"), (.str "width", .int 10), (.str "height", .int 5), (.str "focal_x", .float 1),
      (.str "focal_y", .int 1), (.str "c_x", .float 2), (.str "k1", .float 3)]
      ⟨.brown, 10, 5, .inr (1, 1), none, fun n => if n = "cx" then some 2 else if n = "k1" then some 3 else none⟩ := by
  refine ⟨⟨"brown", rfl, by rw [hl, ht]⟩, ⟨rfl, rfl⟩, ⟨rfl, .float 1, .int 1, Or.inl rfl, Or.inr ⟨1, rfl, by norm_num⟩, rfl, rfl⟩,
    ⟨rfl, rfl⟩, ?_, ?_⟩
  · intro n m h
    simp only [List.mem_cons, List.not_mem_nil, or_false, Prod.mk.injEq] at h
    rcases h with ⟨rfl, rfl⟩ | ⟨rfl, rfl⟩
    · exact ⟨rfl, .float 2, Or.inl rfl, rfl⟩
    · exact ⟨rfl, rfl⟩
  · intro n h
    have : n = "k1" ∨ n = "k2" ∨ n = "p1" ∨ n = "p2" ∨ n = "k3" := by
      revert n
      decide
    rcases this with rfl | rfl | rfl | rfl | rfl
    · exact ⟨.float 3, Or.inl rfl, rfl⟩
    all_goals exact rfl

/-- An Orthority file of the demonstration camera. -/
example : OtyCam id [(.str "type", .str "pinhole"), (.str "im_size", .list [.int 10, .int 5]), (.str "focal_len", .int 1)] demoFile := by
  refine ⟨⟨"pinhole", rfl, rfl⟩, rfl, ⟨.int 1, Or.inr ⟨1, rfl, by norm_num⟩, rfl⟩, rfl, ?_⟩
  intro n hn
  have : n = "cx" ∨ n = "cy" := by
    revert n
    decide
  rcases this with rfl | rfl <;> exact rfl

/-- A pinhole camera with a distortion coefficient is refused. -/
example : createCamera (("k1", .float 1) :: demoParams) [] = .error .typeError :=
  (C81_refuses _ _).1 .pinhole rfl "k1" (List.mem_cons_self ..) (by decide) (by decide)

/-- An image size with a fraction. -/
example : ∃ c, createCamera [("cam_type", .str "pinhole"), ("im_size", .list [.float (21 / 2), .int 5]), ("focal_len", .int 1)] [] = .ok c ∧
    c.imSize = (10, 5) := by
  have hi : ⌊(21 / 2 : ℝ)⌋ = 10 := by rw [Int.floor_eq_iff]; norm_num
  have h : ∃ c, createCamera [("cam_type", .str "pinhole"), ("im_size", .list [.float (21 / 2), .int 5]), ("focal_len", .int 1)] [] = .ok c := by
    refine ⟨⟨.pinhole, (10, 5), kMat (sigmaXY (10, 5) (1, 1) none) (centreXY (10, 5) 0 0), []⟩, ?_⟩
    have him : imSizeOf (.list [.float (21 / 2), .int 5]) = .ok (10, 5) := by
      simp only [imSizeOf, item, pyInt, ok_bind, List.getElem?_cons_zero, List.getElem?_cons_succ]
      rw [if_pos (by norm_num), hi]
      rfl
    have hf : focalOf (.int 1) = .ok [1] := by simp [focalOf, num, ok_bind, pure, Except.pure]
    have hK : getIntrinsic (10, 5) [1] none 0 0 = .ok (kMat (sigmaXY (10, 5) (1, 1) none) (centreXY (10, 5) 0 0)) := rfl
    show construct .pinhole [("im_size", .list [.float (21 / 2), .int 5]), ("focal_len", .int 1)] = _
    unfold construct
    rw [if_neg (by decide)]
    simp only [Dict.get?, zeroOr]
    simp [him, hf, hK, ok_bind, sensorOf, kMat_det, sigmaXY, distParam]
  obtain ⟨c, h⟩ := h
  refine ⟨c, h, ?_⟩
  rw [C81_im_size _ _ c h (.float (21 / 2)) (.int 5) [] (.inl rfl) (21 / 2) 5 (.inl rfl) (.inr ⟨5, rfl, by norm_num⟩) (by norm_num) (by norm_num)]
  rw [show ⌊(21 / 2 : ℝ)⌋₊ = 10 by rw [Nat.floor_eq_iff (by norm_num)]; norm_num]
  rw [show ⌊(5 : ℝ)⌋₊ = 5 by rw [Nat.floor_eq_iff (by norm_num)]; norm_num]

/-- So is a camera with a sensor width only. -/
example : ∃ e, createCamera (("sensor_size", .float 36) :: demoParams) [] = .error e :=
  C81_sensor _ _ (.float 36) rfl (.inl ⟨36, .inl rfl⟩)

/-- A camera with a focal length of zero is refused. -/
example : createCamera [("cam_type", .str "pinhole"), ("im_size", .tuple [.int 10, .int 5]), ("focal_len", .float 0)] [] = .error .valueError := by
  refine C81_singular _ _ ⟨.pinhole, 10, 5, .inl 0, none, fun _ => none⟩ ⟨rfl, rfl, ⟨.float 0, Or.inl rfl, rfl⟩, rfl, ?_, ?_⟩
    (fun n h => absurd h List.not_mem_nil) (.inr (.inl rfl))
  · intro n hn
    have : n = "cx" ∨ n = "cy" := by
      revert n
      decide
    rcases this with rfl | rfl <;> exact rfl
  · intro n hn
    simp only [List.map_cons, List.map_nil, List.mem_cons, List.not_mem_nil, or_false] at hn
    rcases hn with rfl | rfl | rfl <;> decide

end

end Verif.Create
