import Verif.Factory.Create
import Verif.Frame.UndistortSpec

/-!
# C84: images that frame cameras read
-/

set_option autoImplicit false

namespace Verif.ReadIm

open Verif.ParamIO
open Verif.Frame hiding FrameType
open Verif.Create
open Real (sqrt arctan)

noncomputable section

/-! ## Model -/

/-- A band, by row and column. -/
abbrev Band (V : Type) := ℕ → ℕ → V

/-- A 3D image array or an image file, with the data type of its (first) band. -/
structure Image (V : Type) where
  dtype : String
  h : ℕ
  w : ℕ
  bands : List (Band V)

/-- What numpy, OpenCV and rasterio do. -/
structure Ext (V : Type) where
  /-- `cv2.undistortPoints` or `cv2.fisheye.undistortPoints` for a camera, orthority/camera.py:1262-1266 and 1484-1488. -/
  undistort : CamObj → ℝ × ℝ → V3
  /-- Rounding to float32. -/
  f32 : ℝ → ℝ
  /-- Value that `cv2.remap` interpolates in a band of the given height and width at a column and row; none outside the band. -/
  samp : String → ℕ → ℕ → Band V → ℝ → ℝ → Option V
  /-- Conversion of a value to a data type, in the `read` method of a rasterio dataset. -/
  conv : String → V → V

/-- The two arrays of `_get_undistort_maps`, as one array of columns and rows. -/
structure Maps where
  h : ℕ
  w : ℕ
  loc : ℕ → ℕ → ℝ × ℝ

/-- `cv2.initUndistortRectifyMap` at one pixel, by the formula of OpenCV's documentation with R the identity,
orthority/camera.py:1238-1240. -/
def cvMap (K : M3) (d : List ℝ) (Ku : M3) (u v : ℝ) : ℝ × ℝ :=
  let x := (u - Ku 0 2) / Ku 0 0
  let y := (v - Ku 1 2) / Ku 1 1
  let p := cvDistort d x y
  (p.1 * K 0 0 + K 0 2, p.2 * K 1 1 + K 1 2)

open Classical in
/-- `cv2.fisheye.initUndistortRectifyMap` at one pixel, orthority/camera.py:1452-1454.  OpenCV does not divide by a zero radius. -/
def fishMap (K : M3) (d : List ℝ) (Ku : M3) (u v : ℝ) : ℝ × ℝ :=
  let x := (u - Ku 0 2) / Ku 0 0
  let y := (v - Ku 1 2) / Ku 1 1
  let r := sqrt (x * x + y * y)
  let t := arctan r
  let td := t * (1 + coef d 0 * t ^ 2 + coef d 1 * t ^ 4 + coef d 2 * t ^ 6 + coef d 3 * t ^ 8)
  let s := if r = 0 then 1 else td / r
  (K 0 0 * x * s + K 0 2, K 1 1 * y * s + K 1 2)

/-- The class of a camera decides which of the two is used, orthority/camera.py:783-787, 1232-1255 and 1448-1455. -/
def mapAt (c : CamObj) (Ku : M3) (u v : ℝ) : ℝ × ℝ :=
  match c.type with
  | .fisheye => fishMap c.K c.dist Ku u v
  | _ => cvMap c.K c.dist Ku u v

variable {V : Type} (x : Ext V)

/-- What the state machine of `Verif.Frame.UndEnv` needs to know of a camera: matrix by alpha (orthority/camera.py:736-781) and maps by
matrix (orthority/camera.py:1232-1255 and 1448-1455), which have float32 values. -/
def undEnv (c : CamObj) : UndEnv Maps where
  isPinhole := decide (c.type = .pinhole)
  K := c.K
  intr := fun alpha => undistIntrinsic c.imSize (x.undistort c) alpha
  mkMaps := fun Ku => ⟨c.imSize.2, c.imSize.1, fun i j => (x.f32 (mapAt c Ku j i).1, x.f32 (mapAt c Ku j i).2)⟩

/-- The bands of `dataset.read(indexes)`. -/
def pick {α : Type} (l : List α) : List ℤ → Res (List α)
  | [] => .ok []
  | i :: is =>
    if 1 ≤ i then
      match l[i.toNat - 1]? with
      | some b => do
        let bs ← pick l is
        pure (b :: bs)
      | none => .error .indexError
    else .error .indexError

/-- Argument `indexes`: None, a number or a sequence. -/
inductive Indexes
  | all
  | one (i : ℤ)
  | many (is : List ℤ)

/-- orthority/camera.py:287-317 `Camera.read`.  A single index gives an array with one band (line 312). -/
def baseRead (f : Image V) (ix : Indexes) (dtype : Option String) : Res (Image V) := do
  let dt := dtype.getD f.dtype
  let bs ← match ix with
    | .all => .ok f.bands
    | .one i => pick f.bands [i]
    | .many is => pick f.bands is
  pure ⟨dt, f.h, f.w, bs.map fun b i j => x.conv dt (b i j)⟩

/-- orthority/camera.py:47 `_valid_dtypes`. -/
def validDtypes : List String := ["uint8", "uint16", "int16", "float32", "float64"]

/-- orthority/camera.py:49 `_shrt_max`. -/
def shrtMax : ℕ := 2 ^ 15 - 1

/-- orthority/camera.py:87-101 `_validate_image` for a 3D array: the result says if there is a warning. -/
def validateImage (c : CamObj) (im : Image V) : Res Bool :=
  if im.dtype ∉ validDtypes then .error .valueError
  else if im.h > shrtMax ∨ im.w > shrtMax then .error .valueError
  else .ok (decide ((im.h, im.w) ≠ (c.imSize.2, c.imSize.1)))

/-- Interpolation types, orthority/enums.py:80-92. -/
def interpNames : List String := ["nearest", "average", "bilinear", "cubic", "lanczos"]

/-- `cv2.remap(src, *maps, interp, dst=dst, borderMode=cv2.BORDER_TRANSPARENT)`: content of the array passed as `dst` afterwards.
OpenCV requires that the sides of the source and the maps are less than SHRT_MAX.  When the array does not have the size of the maps,
OpenCV allocates another one and leaves the given one as it was. -/
def cvRemap (interp : String) (h w : ℕ) (src : Band V) (m : Maps) (dst : Band V) : Res (Band V) :=
  if 2 ^ 15 - 1 ≤ h ∨ 2 ^ 15 - 1 ≤ w ∨ 2 ^ 15 - 1 ≤ m.h ∨ 2 ^ 15 - 1 ≤ m.w then .error .cvError
  else if (h, w) = (m.h, m.w) then
    .ok fun i j => (x.samp interp h w src (m.loc i j).1 (m.loc i j).2).getD (dst i j)
  else .ok dst

/-- The loop over bands, orthority/camera.py:930-936.  `Interp[interp]` is a KeyError for another name. -/
def remapBands (interp : String) (h w : ℕ) (m : Maps) (nodata : V) : List (Band V) → Res (List (Band V))
  | [] => .ok []
  | b :: bs =>
    if interp ∉ interpNames then .error .keyError
    else do
      let r ← cvRemap x interp h w b m (fun _ _ => nodata)
      let rs ← remapBands interp h w m nodata bs
      pure (r :: rs)

/-- orthority/camera.py:908-938 `_undistort_im` with a nodata value: state after, and result. -/
def undistortIm (c : CamObj) (s : UndState Maps) (im : Image V) (nodata : V) (interp : String) : UndState Maps × Res (Image V) :=
  match validateImage c im with
  | .error e => (s, .error e)
  | .ok _ =>
    let p := (undEnv x c).undistort s
    match p.2 with
    | none => (p.1, .ok im)
    | some m => (p.1, do
      let bs ← remapBands x interp im.h im.w m nodata im.bands
      pure { im with bands := bs })

/-- Arguments of `read`, orthority/camera.py:1020-1027. -/
structure ReadArgs (V : Type) where
  file : Image V
  indexes : Indexes := .all
  dtype : Option String := none
  nodata : Option V := none
  interp : String := "cubic"

/-- orthority/camera.py:1020-1057 `FrameCamera.read`.  The look up of a default nodata value is a KeyError (C08). -/
def read (c : CamObj) (s : UndState Maps) (a : ReadArgs V) : UndState Maps × Res (Image V) :=
  match baseRead x a.file a.indexes a.dtype with
  | .error e => (s, .error e)
  | .ok im =>
    if s.distort then (s, .ok im)
    else match a.nodata with
      | none => (s, .error .keyError)
      | some n => undistortIm x c s im n a.interp

/-- Calls on a camera. -/
inductive Call (V : Type)
  | setAlpha (v : ℝ)
  | setDistort (v : Bool)
  | read (a : ReadArgs V)

/-- State after a call, whether it returns or raises. -/
def step (c : CamObj) (s : UndState Maps) : Call V → UndState Maps
  | .setAlpha v => (undEnv x c).setAlpha s v
  | .setDistort v => UndEnv.setDistort s v
  | .read a => (read x c s a).1

/-- State of a camera that was constructed with `alpha` and `distort`, after some calls. -/
def after (c : CamObj) (alpha : ℝ) (distort : Bool) (calls : List (Call V)) : UndState Maps :=
  calls.foldl (step x c) ((undEnv x c).init alpha distort)

/-- orthority/camera.py:789-792 and 800-841: `world_to_pixel` of a camera without distortion, after `update(xyz, opk)`. -/
def undPixel (Ku : M3) (xyz : V3) (opk : ℝ × ℝ × ℝ) (X : V3) : ℝ × ℝ :=
  dotK Ku (FrameCam.unitDepth (FrameCam.camCoords (extrinsicR opk) xyz X))

/-! ## Specification -/

/-- The last alpha given. -/
def lastAlpha (alpha : ℝ) : List (Call V) → ℝ
  | [] => alpha
  | .setAlpha v :: cs => lastAlpha v cs
  | _ :: cs => lastAlpha alpha cs

/-- The last `distort` given. -/
def lastDistort (distort : Bool) : List (Call V) → Bool
  | [] => distort
  | .setDistort v :: cs => lastDistort v cs
  | _ :: cs => lastDistort distort cs

/-- The bands asked for, in order. -/
def Asked (f : Image V) : Indexes → List (Band V) → Prop
  | .all, bs => bs = f.bands
  | .one i, bs => ∃ b, 1 ≤ i ∧ f.bands[(i - 1).toNat]? = some b ∧ bs = [b]
  | .many is, bs => List.Forall₂ (fun i b => 1 ≤ i ∧ f.bands[(i - 1).toNat]? = some b) is bs

/-! ## Lemmas -/

theorem pick_iff {α : Type} (l : List α) (is : List ℤ) (bs : List α) :
    pick l is = .ok bs ↔ List.Forall₂ (fun i b => 1 ≤ i ∧ l[(i - 1).toNat]? = some b) is bs := by
  induction is generalizing bs with
  | nil =>
    simp only [pick]
    constructor
    · intro h; cases h; exact .nil
    · intro h; cases h; rfl
  | cons i is ih =>
    simp only [pick]
    have e : (i - 1).toNat = i.toNat - 1 := by omega
    by_cases hi : 1 ≤ i
    · rw [if_pos hi]
      cases hb : l[i.toNat - 1]? with
      | none =>
        constructor
        · intro h; cases h
        · intro h
          cases h with
          | cons h _ => rw [e, hb] at h; cases h.2
      | some b =>
        constructor
        · intro h
          cases hp : pick l is with
          | error e => rw [hp] at h; cases h
          | ok r =>
            simp only [hp, Res.ok_bind] at h
            cases h
            exact .cons ⟨hi, by rw [e, hb]⟩ ((ih r).1 hp)
        · intro h
          cases h with
          | cons h1 h2 =>
            rw [e, hb] at h1
            cases h1.2
            simp only [(ih _).2 h2, Res.ok_bind]
            rfl
    · rw [if_neg hi]
      constructor
      · intro h; cases h
      · intro h
        cases h with
        | cons h _ => exact absurd h.1 hi

theorem baseRead_iff (f : Image V) (ix : Indexes) (dtype : Option String) (im : Image V) :
    baseRead x f ix dtype = .ok im ↔
      ∃ bs, Asked f ix bs ∧ im = ⟨dtype.getD f.dtype, f.h, f.w, bs.map fun b i j => x.conv (dtype.getD f.dtype) (b i j)⟩ := by
  unfold baseRead
  cases ix with
  | all =>
    simp only [Res.ok_bind, Asked, exists_eq_left]
    constructor
    · intro h; cases h; rfl
    · intro h; rw [h]; rfl
  | one i =>
    constructor
    · intro h
      cases hp : pick f.bands [i] with
      | error e => simp only [hp] at h; cases h
      | ok bs =>
        simp only [hp, Res.ok_bind] at h
        cases h
        refine ⟨bs, ?_, rfl⟩
        cases (pick_iff _ _ _).1 hp with
        | cons h1 h2 => cases h2; exact ⟨_, h1.1, h1.2, rfl⟩
    · rintro ⟨bs, ⟨b, h1, h2, rfl⟩, rfl⟩
      simp only [(pick_iff f.bands [i] [b]).2 (.cons ⟨h1, h2⟩ .nil), Res.ok_bind]
      rfl
  | many is =>
    constructor
    · intro h
      cases hp : pick f.bands is with
      | error e => simp only [hp] at h; cases h
      | ok bs =>
        simp only [hp, Res.ok_bind] at h
        cases h
        exact ⟨bs, (pick_iff _ _ _).1 hp, rfl⟩
    · rintro ⟨bs, h1, rfl⟩
      simp only [(pick_iff f.bands is bs).2 h1, Res.ok_bind]
      rfl

/-- A call leaves the state as one or two of the changes in `UndEnv` do. -/
theorem step_eq (c : CamObj) (s : UndState Maps) (call : Call V) :
    ∃ ops : List UndEnv.Op, step x c s call = (undEnv x c).run s ops ∧
      (∀ a, UndEnv.lastAlpha a ops = lastAlpha a [call]) ∧ ∀ d, UndEnv.lastDistort d ops = lastDistort d [call] := by
  cases call with
  | setAlpha v => exact ⟨[.setAlpha v], rfl, fun _ => rfl, fun _ => rfl⟩
  | setDistort v => exact ⟨[.setDistort v], rfl, fun _ => rfl, fun _ => rfl⟩
  | read a =>
    have h0 : (∃ ops : List UndEnv.Op, s = (undEnv x c).run s ops ∧
      (∀ b, UndEnv.lastAlpha b ops = lastAlpha b [Call.read a]) ∧ ∀ d, UndEnv.lastDistort d ops = lastDistort d [Call.read a]) :=
      ⟨[], rfl, fun _ => rfl, fun _ => rfl⟩
    simp only [step, read]
    split
    · exact h0
    · split
      · exact h0
      · rename_i hd
        split
        · exact h0
        · unfold undistortIm
          split
          · exact h0
          · refine ⟨[.read], ?_, fun _ => rfl, fun _ => rfl⟩
            simp only [UndEnv.run, List.foldl_cons, List.foldl_nil, UndEnv.step, UndEnv.read, if_neg hd]
            split <;> rfl

theorem after_eq (c : CamObj) (alpha : ℝ) (distort : Bool) (calls : List (Call V)) :
    ∃ ops : List UndEnv.Op, after x c alpha distort calls = (undEnv x c).run ((undEnv x c).init alpha distort) ops ∧
      UndEnv.lastAlpha alpha ops = lastAlpha alpha calls ∧ UndEnv.lastDistort distort ops = lastDistort distort calls := by
  have key : ∀ (calls : List (Call V)) (s : UndState Maps), ∃ ops : List UndEnv.Op,
      calls.foldl (step x c) s = (undEnv x c).run s ops ∧
      (∀ a, UndEnv.lastAlpha a ops = lastAlpha a calls) ∧ ∀ d, UndEnv.lastDistort d ops = lastDistort d calls := by
    intro calls
    induction calls with
    | nil => intro s; exact ⟨[], rfl, fun _ => rfl, fun _ => rfl⟩
    | cons call calls ih =>
      intro s
      obtain ⟨o1, h1, h2, h3⟩ := step_eq x c s call
      obtain ⟨o2, g1, g2, g3⟩ := ih (step x c s call)
      have la : ∀ (o1 o2 : List UndEnv.Op) a, UndEnv.lastAlpha a (o1 ++ o2) = UndEnv.lastAlpha (UndEnv.lastAlpha a o1) o2 := by
        intro o1 o2
        induction o1 with
        | nil => intro a; rfl
        | cons o os ih => intro a; cases o <;> exact ih _
      have ld : ∀ (o1 o2 : List UndEnv.Op) a, UndEnv.lastDistort a (o1 ++ o2) = UndEnv.lastDistort (UndEnv.lastDistort a o1) o2 := by
        intro o1 o2
        induction o1 with
        | nil => intro a; rfl
        | cons o os ih => intro a; cases o <;> exact ih _
      refine ⟨o1 ++ o2, ?_, ?_, ?_⟩
      · rw [List.foldl_cons, g1, h1]
        simp [UndEnv.run]
      · intro a
        rw [la, h2, g2]
        cases call <;> rfl
      · intro a
        rw [ld, h3, g3]
        cases call <;> rfl
  obtain ⟨ops, h1, h2, h3⟩ := key calls ((undEnv x c).init alpha distort)
  exact ⟨ops, h1, h2 _, h3 _⟩

theorem after_distort (c : CamObj) (alpha : ℝ) (distort : Bool) (calls : List (Call V)) :
    (after x c alpha distort calls).distort = lastDistort distort calls := by
  obtain ⟨ops, h1, _, h3⟩ := after_eq x c alpha distort calls
  rw [h1, UndEnv.C43_distort]
  exact h3

/-- The maps used to undistort. -/
theorem after_maps (c : CamObj) (alpha : ℝ) (distort : Bool) (calls : List (Call V)) :
    ((undEnv x c).undistort (after x c alpha distort calls)).2 =
      if c.type = .pinhole then none
      else some ((undEnv x c).mkMaps (undistIntrinsic c.imSize (x.undistort c) (lastAlpha alpha calls))) := by
  obtain ⟨ops, h1, h2, -⟩ := after_eq x c alpha distort calls
  have h := ((undEnv x c).C43_used alpha distort (ops ++ [.setDistort false])).1
  have r : (undEnv x c).run ((undEnv x c).init alpha distort) (ops ++ [.setDistort false]) =
      UndEnv.setDistort (after x c alpha distort calls) false := by
    rw [h1]
    simp [UndEnv.run, UndEnv.step]
  have ld : ∀ (o : List UndEnv.Op) a, UndEnv.lastDistort a (o ++ [.setDistort false]) = false := by
    intro o
    induction o with
    | nil => intro a; rfl
    | cons o os ih => intro a; cases o <;> exact ih _
  have la : ∀ (o : List UndEnv.Op) a, UndEnv.lastAlpha a (o ++ [.setDistort false]) = UndEnv.lastAlpha a o := by
    intro o
    induction o with
    | nil => intro a; rfl
    | cons o os ih => intro a; cases o <;> exact ih _
  rw [r, ld, la, h2] at h
  simp only [UndEnv.read, UndEnv.setDistort, Bool.false_eq_true, if_false, false_or] at h
  have e : ((undEnv x c).undistort { after x c alpha distort calls with distort := false }).2 =
      ((undEnv x c).undistort (after x c alpha distort calls)).2 := by
    simp only [UndEnv.undistort]
    split
    · rfl
    · split <;> rfl
  rw [e] at h
  rw [h]
  simp only [undEnv, decide_eq_true_eq]

theorem remapBands_ok (interp : String) (hi : interp ∈ interpNames) (h w : ℕ) (m : Maps) (nodata : V) (hs : h < 32767 ∧ w < 32767)
    (hm : m.h < 32767 ∧ m.w < 32767) (bs : List (Band V)) :
    remapBands x interp h w m nodata bs = .ok (bs.map fun b i j =>
      if (h, w) = (m.h, m.w) then (x.samp interp h w b (m.loc i j).1 (m.loc i j).2).getD nodata else nodata) := by
  induction bs with
  | nil => rfl
  | cons b bs ih =>
    have hc : ¬ (2 ^ 15 - 1 ≤ h ∨ 2 ^ 15 - 1 ≤ w ∨ 2 ^ 15 - 1 ≤ m.h ∨ 2 ^ 15 - 1 ≤ m.w) := by omega
    have : cvRemap x interp h w b m (fun _ _ => nodata) = .ok (fun i j =>
        if (h, w) = (m.h, m.w) then (x.samp interp h w b (m.loc i j).1 (m.loc i j).2).getD nodata else nodata) := by
      unfold cvRemap
      rw [if_neg hc]
      split <;> rfl
    simp only [remapBands, hi, not_true_eq_false, if_false, this, ih, Res.ok_bind]
    rfl

/-- What construction gives. -/
theorem construct_shape (t : FrameType) (kw : Dict String (Py ℝ)) (c : CamObj) (h : construct t kw = .ok c) :
    c.type = t ∧ (∃ s p, c.K = kMat s p) ∧ distParam t kw = .ok c.dist := by
  unfold construct at h
  split at h
  · cases h
  · split at h
    · rename_i size focal _ _
      cases h1 : imSizeOf size with
      | error e => rw [h1] at h; cases h
      | ok im =>
      cases h2 : focalOf focal with
      | error e => rw [h1, h2] at h; cases h
      | ok f =>
      cases h3 : sensorOf (Dict.get? kw "sensor_size") with
      | error e => rw [h1, h2, h3] at h; cases h
      | ok s =>
      cases h4 : zeroOr kw "cx" with
      | error e => rw [h1, h2, h3, h4] at h; cases h
      | ok cx =>
      cases h5 : zeroOr kw "cy" with
      | error e => rw [h1, h2, h3, h4, h5] at h; cases h
      | ok cy =>
      cases h6 : getIntrinsic im f s cx cy with
      | error e => simp only [h1, h2, h3, h4, h5, h6, Res.ok_bind] at h; cases h
      | ok K =>
        simp only [h1, h2, h3, h4, h5, h6, Res.ok_bind] at h
        split at h
        · cases h
        · cases h7 : distParam t kw with
          | error e => simp only [h7] at h; cases h
          | ok d =>
            simp only [h7, Res.ok_bind] at h
            cases h
            refine ⟨rfl, ?_, rfl⟩
            unfold getIntrinsic at h6
            cases s with
            | none =>
              cases hf : focalPair f with
              | error e => simp only [hf] at h6; cases h6
              | ok fp => simp only [hf] at h6; cases h6; exact ⟨_, _, rfl⟩
            | some l =>
              cases hl : sensorPair l with
              | error e => simp only [hl] at h6; cases h6
              | ok lp =>
                cases hf : focalPair f with
                | error e => simp only [hl, hf] at h6; cases h6
                | ok fp => simp only [hl, hf] at h6; cases h6; exact ⟨_, _, rfl⟩
    · cases h

theorem createCamera_shape (p kw : Dict String (Py ℝ)) (c : CamObj) (h : createCamera p kw = .ok c) :
    ∃ kw' : Dict String (Py ℝ), (∃ s q, c.K = kMat s q) ∧ distParam c.type kw' = .ok c.dist := by
  unfold createCamera at h
  split at h
  · cases h
  · simp only at h
    split at h
    · cases h
    · split at h
      · cases h
      · split at h
        · cases h
        · obtain ⟨h1, h2, h3⟩ := construct_shape _ _ _ h
          rw [← h1] at h3
          exact ⟨_, h2, h3⟩
    · cases h

theorem brown_dist (kw : Dict String (Py ℝ)) (d : List ℝ) (h : distParam .brown kw = .ok d) :
    ∃ k1 k2 p1 p2 k3, d = [k1, k2, p1, p2, k3] := by
  unfold distParam at h
  cases h1 : zeroOr kw "k1" with
  | error e => simp only [h1] at h; cases h
  | ok k1 =>
  cases h2 : zeroOr kw "k2" with
  | error e => simp only [h1, h2] at h; cases h
  | ok k2 =>
  cases h3 : zeroOr kw "p1" with
  | error e => simp only [h1, h2, h3] at h; cases h
  | ok p1 =>
  cases h4 : zeroOr kw "p2" with
  | error e => simp only [h1, h2, h3, h4] at h; cases h
  | ok p2 =>
  cases h5 : zeroOr kw "k3" with
  | error e => simp only [h1, h2, h3, h4, h5] at h; cases h
  | ok k3 =>
    simp only [h1, h2, h3, h4, h5, Res.ok_bind] at h
    cases h
    exact ⟨_, _, _, _, _, rfl⟩

theorem fisheye_dist (kw : Dict String (Py ℝ)) (d : List ℝ) (h : distParam .fisheye kw = .ok d) :
    ∃ k1 k2 k3 k4, d = [k1, k2, k3, k4] := by
  unfold distParam at h
  cases h1 : zeroOr kw "k1" with
  | error e => simp only [h1] at h; cases h
  | ok k1 =>
  cases h2 : zeroOr kw "k2" with
  | error e => simp only [h1, h2] at h; cases h
  | ok k2 =>
  cases h3 : zeroOr kw "k3" with
  | error e => simp only [h1, h2, h3] at h; cases h
  | ok k3 =>
  cases h4 : zeroOr kw "k4" with
  | error e => simp only [h1, h2, h3, h4] at h; cases h
  | ok k4 =>
    simp only [h1, h2, h3, h4, Res.ok_bind] at h
    cases h
    exact ⟨_, _, _, _, rfl⟩

/-- The map at the undistorted pixel of a point at unit depth is the distorted pixel of the point. -/
theorem mapAt_eq (p kw : Dict String (Py ℝ)) (c : CamObj) (hc : createCamera p kw = .ok c) (hp : c.type ≠ .pinhole) (s q : ℝ × ℝ)
    (hdet : (kMat s q).det ≠ 0) (y : V3) (hy : y 2 = 1) (hax : c.type = .fisheye → ¬ (y 0 = 0 ∧ y 1 = 0)) :
    c.camToPix y = (.val (mapAt c (kMat s q) (dotK (kMat s q) y).1 (dotK (kMat s q) y).2).1,
      .val (mapAt c (kMat s q) (dotK (kMat s q) y).1 (dotK (kMat s q) y).2).2) := by
  obtain ⟨kw', ⟨s', q', hK⟩, hd⟩ := createCamera_shape p kw c hc
  rw [kMat_det] at hdet
  have h1 : s.1 ≠ 0 := left_ne_zero_of_mul hdet
  have h2 : s.2 ≠ 0 := right_ne_zero_of_mul hdet
  have e1 : ((dotK (kMat s q) y).1 - kMat s q 0 2) / kMat s q 0 0 = y 0 := by
    rw [Create.vec_eq y hy, Create.dotK_kMat]
    simp [kMat, h1]
  have e2 : ((dotK (kMat s q) y).2 - kMat s q 1 2) / kMat s q 1 1 = y 1 := by
    rw [Create.vec_eq y hy, Create.dotK_kMat]
    simp [kMat, h2]
  have cv : ∀ d, cvMap c.K d (kMat s q) (dotK (kMat s q) y).1 (dotK (kMat s q) y).2 = cvCamToPix c.K d y := by
    intro d
    unfold cvMap cvCamToPix
    rw [e1, e2, hK, hy, div_one, div_one, Create.dotK_kMat]
    simp [kMat]
    constructor <;> ring
  unfold mapAt CamObj.camToPix
  cases ht : c.type with
  | pinhole => exact absurd ht hp
  | opencv => simp only [cv]
  | brown =>
    rw [ht] at hd
    obtain ⟨k1, k2, p1, p2, k3, hd'⟩ := brown_dist kw' _ hd
    simp only [cv, hd']
    rw [C45_brown _ _ _ _ _ _ _ hy]
  | fisheye =>
    rw [ht] at hd
    obtain ⟨k1, k2, k3, k4, hd'⟩ := fisheye_dist kw' _ hd
    simp only [hd', fishMap, e1, e2]
    have hr : axisDist (y 0) (y 1) ≠ 0 := by
      intro h
      apply hax ht
      unfold axisDist at h
      rw [Real.sqrt_eq_zero (by positivity)] at h
      have a := sq_nonneg (y 0)
      have b := sq_nonneg (y 1)
      exact ⟨pow_eq_zero_iff (two_ne_zero) |>.1 (by linarith), pow_eq_zero_iff (two_ne_zero) |>.1 (by linarith)⟩
    have hr' : sqrt (y 0 * y 0 + y 1 * y 1) = axisDist (y 0) (y 1) := by
      unfold axisDist
      congr 1
      ring
    rw [hr', if_neg hr, hK]
    simp only [fisheyeDistort, C45_fisheye, dotKFl, Fl.val_div, if_neg hr, coef]
    simp [kMat]
    constructor <;> ring

theorem validate_ok (c : CamObj) (dt : String) (h w : ℕ) (bs : List (Band V))
    (ht : dt ∈ ["uint8", "uint16", "int16", "float32", "float64"]) (hs : h ≤ 32767 ∧ w ≤ 32767) :
    validateImage c ⟨dt, h, w, bs⟩ = .ok (decide ((h, w) ≠ (c.imSize.2, c.imSize.1))) := by
  unfold validateImage
  rw [if_neg (fun h => h ht), if_neg (by unfold shrtMax; simp only; omega)]

theorem validate_error (c : CamObj) (dt : String) (h w : ℕ) (bs : List (Band V))
    (hf : dt ∉ ["uint8", "uint16", "int16", "float32", "float64"] ∨ 32767 < h ∨ 32767 < w) :
    validateImage c ⟨dt, h, w, bs⟩ = .error .valueError := by
  unfold validateImage
  rcases hf with hf | hf
  · rw [if_pos (show dt ∉ validDtypes from hf)]
  · split
    · rfl
    · rw [if_pos (by unfold shrtMax; simp only; omega)]

/-! ## C84 -/

/-- C84: a camera with distortion returns the bands asked for as they are in the file, in the data type asked for or that of the
file.  Other arguments and calls before make no difference. -/
theorem C84_distorted (c : CamObj) (alpha : ℝ) (distort : Bool) (calls : List (Call V)) (a : ReadArgs V)
    (hd : lastDistort distort calls = true) (im : Image V) :
    (read x c (after x c alpha distort calls) a).2 = .ok im ↔
      ∃ bs, Asked a.file a.indexes bs ∧
        im = ⟨a.dtype.getD a.file.dtype, a.file.h, a.file.w, bs.map fun b i j => x.conv (a.dtype.getD a.file.dtype) (b i j)⟩ := by
  rw [← baseRead_iff]
  unfold read
  rw [after_distort, hd]
  cases hb : baseRead x a.file a.indexes a.dtype with
  | error e => simp
  | ok im' => simp

/-- C84: a pinhole camera without distortion returns the same, given a nodata value and an image with a data type and size that are
supported. -/
theorem C84_pinhole (c : CamObj) (hp : c.type = .pinhole) (alpha : ℝ) (distort : Bool) (calls : List (Call V)) (a : ReadArgs V)
    (hd : lastDistort distort calls = false) (n : V) (hn : a.nodata = some n)
    (ht : a.dtype.getD a.file.dtype ∈ ["uint8", "uint16", "int16", "float32", "float64"]) (hs : a.file.h < 32767 ∧ a.file.w < 32767)
    (bs : List (Band V)) (hb : Asked a.file a.indexes bs) :
    (read x c (after x c alpha distort calls) a).2 =
      .ok ⟨a.dtype.getD a.file.dtype, a.file.h, a.file.w, bs.map fun b i j => x.conv (a.dtype.getD a.file.dtype) (b i j)⟩ := by
  unfold read
  rw [(baseRead_iff x _ _ _ _).2 ⟨bs, hb, rfl⟩]
  simp only [after_distort, hd, Bool.false_eq_true, if_false, hn, undistortIm]
  rw [validate_ok c _ _ _ _ ht (by omega)]
  simp only [after_maps, if_pos hp]

/-- C84: other cameras without distortion return each pixel interpolated in the file's band at the location of the undistort map for
the last alpha, and nodata where that is not in the image. -/
theorem C84_undistorted (c : CamObj) (hp : c.type ≠ .pinhole) (alpha : ℝ) (distort : Bool) (calls : List (Call V)) (a : ReadArgs V)
    (hd : lastDistort distort calls = false) (n : V) (hn : a.nodata = some n)
    (ht : a.dtype.getD a.file.dtype ∈ ["uint8", "uint16", "int16", "float32", "float64"]) (hs : a.file.h < 32767 ∧ a.file.w < 32767)
    (hz : (a.file.w, a.file.h) = c.imSize) (hi : a.interp ∈ ["nearest", "average", "bilinear", "cubic", "lanczos"])
    (bs : List (Band V)) (hb : Asked a.file a.indexes bs) :
    (read x c (after x c alpha distort calls) a).2 =
      .ok ⟨a.dtype.getD a.file.dtype, a.file.h, a.file.w, bs.map fun b i j =>
        (x.samp a.interp a.file.h a.file.w (fun i j => x.conv (a.dtype.getD a.file.dtype) (b i j))
          (x.f32 (mapAt c (undistIntrinsic c.imSize (x.undistort c) (lastAlpha alpha calls)) j i).1)
          (x.f32 (mapAt c (undistIntrinsic c.imSize (x.undistort c) (lastAlpha alpha calls)) j i).2)).getD n⟩ := by
  unfold read
  rw [(baseRead_iff x _ _ _ _).2 ⟨bs, hb, rfl⟩]
  simp only [after_distort, hd, Bool.false_eq_true, if_false, hn, undistortIm]
  rw [validate_ok c _ _ _ _ ht (by omega)]
  simp only [after_maps, if_neg hp]
  rw [remapBands_ok x a.interp hi _ _ _ _ hs (by rw [undEnv, ← hz]; exact hs)]
  simp only [Res.ok_bind, undEnv, ← hz, if_true, List.map_map]
  rfl

/-- C84: undistorted images show what the camera sees.  When `world_to_pixel` without distortion puts a point on a pixel, that pixel of the
undistorted image shows the source image where `world_to_pixel` with distortion puts the point.  (Nothing is said of points on the axis of
a fisheye camera, which have no distorted pixel: C46.) -/
theorem C84_shows (p kw : Dict String (Py ℝ)) (c : CamObj) (hc : createCamera p kw = .ok c) (hp : c.type ≠ .pinhole)
    (alpha : ℝ) (distort : Bool) (calls : List (Call V)) (a : ReadArgs V)
    (hd : lastDistort distort calls = false) (n : V) (hn : a.nodata = some n)
    (ht : a.dtype.getD a.file.dtype ∈ ["uint8", "uint16", "int16", "float32", "float64"]) (hs : a.file.h < 32767 ∧ a.file.w < 32767)
    (hz : (a.file.w, a.file.h) = c.imSize) (hi : a.interp ∈ ["nearest", "average", "bilinear", "cubic", "lanczos"])
    (bs : List (Band V)) (hb : Asked a.file a.indexes bs) :
    ∃ im, (read x c (after x c alpha distort calls) a).2 = .ok im ∧ im.bands.length = bs.length ∧
      ∀ (xyz : V3) (opk : ℝ × ℝ × ℝ) (X : V3) (i j : ℕ),
        (after x c alpha distort calls).Kund.det ≠ 0 →
        FrameCam.camCoords (extrinsicR opk) xyz X 2 ≠ 0 →
        (c.type = .fisheye → ¬ (FrameCam.camCoords (extrinsicR opk) xyz X 0 = 0 ∧ FrameCam.camCoords (extrinsicR opk) xyz X 1 = 0)) →
        undPixel (after x c alpha distort calls).Kund xyz opk X = ((j : ℝ), (i : ℝ)) →
        ∃ u v, c.worldToPixel xyz opk X = (.val u, .val v) ∧
          ∀ (k : ℕ) (b r : Band V), bs[k]? = some b → im.bands[k]? = some r →
            r i j = (x.samp a.interp a.file.h a.file.w (fun i j => x.conv (a.dtype.getD a.file.dtype) (b i j))
              (x.f32 u) (x.f32 v)).getD n := by
  refine ⟨_, C84_undistorted x c hp alpha distort calls a hd n hn ht hs hz hi bs hb, by simp, ?_⟩
  intro xyz opk X i j hdet hz2 hax hu
  obtain ⟨ops, h1, h2, -⟩ := after_eq x c alpha distort calls
  have hK : (after x c alpha distort calls).Kund = undistIntrinsic c.imSize (x.undistort c) (lastAlpha alpha calls) := by
    rw [h1, ((undEnv x c).C43_used alpha distort ops).2, h2]
    simp [undEnv, hp]
  rw [hK] at hdet hu
  obtain ⟨s, q, hsq⟩ : ∃ s q, undistIntrinsic c.imSize (x.undistort c) (lastAlpha alpha calls) = kMat s q := ⟨_, _, rfl⟩
  rw [hsq] at hdet hu ⊢
  set y := FrameCam.unitDepth (FrameCam.camCoords (extrinsicR opk) xyz X) with hy
  have hy2 : y 2 = 1 := by simp [hy, FrameCam.unitDepth, hz2]
  have hya : c.type = .fisheye → ¬ (y 0 = 0 ∧ y 1 = 0) := by
    intro ht h
    apply hax ht
    simpa [hy, FrameCam.unitDepth, hz2] using h
  have hu' : dotK (kMat s q) y = ((j : ℝ), (i : ℝ)) := hu
  have hm := mapAt_eq p kw c hc hp s q hdet y hy2 hya
  rw [hu'] at hm
  refine ⟨_, _, hm, ?_⟩
  intro k b r hb' hr
  rw [List.getElem?_map, hb'] at hr
  simp only [Option.map_some, Option.some.injEq] at hr
  rw [← hr]

/-- C84: reading without distortion and without a nodata value is a KeyError, though a default is documented. -/
theorem C84_default_fails (c : CamObj) (s : UndState Maps) (hd : s.distort = false) (a : ReadArgs V) (hn : a.nodata = none)
    (bs : List (Band V)) (hb : Asked a.file a.indexes bs) : (read x c s a).2 = .error .keyError := by
  unfold read
  rw [(baseRead_iff x _ _ _ _).2 ⟨bs, hb, rfl⟩]
  simp [hd, hn]

/-- C84: an image that does not have the camera's size is returned without distortion as nodata everywhere. -/
theorem C84_size_fails (c : CamObj) (hp : c.type ≠ .pinhole) (alpha : ℝ) (distort : Bool) (calls : List (Call V)) (a : ReadArgs V)
    (hd : lastDistort distort calls = false) (n : V) (hn : a.nodata = some n)
    (ht : a.dtype.getD a.file.dtype ∈ ["uint8", "uint16", "int16", "float32", "float64"]) (hs : a.file.h < 32767 ∧ a.file.w < 32767)
    (hc : c.imSize.1 < 32767 ∧ c.imSize.2 < 32767) (hz : (a.file.w, a.file.h) ≠ c.imSize)
    (hi : a.interp ∈ ["nearest", "average", "bilinear", "cubic", "lanczos"]) (bs : List (Band V)) (hb : Asked a.file a.indexes bs) :
    (read x c (after x c alpha distort calls) a).2 =
      .ok ⟨a.dtype.getD a.file.dtype, a.file.h, a.file.w, bs.map fun _ _ _ => n⟩ := by
  unfold read
  rw [(baseRead_iff x _ _ _ _).2 ⟨bs, hb, rfl⟩]
  simp only [after_distort, hd, Bool.false_eq_true, if_false, hn, undistortIm]
  rw [validate_ok c _ _ _ _ ht (by omega)]
  simp only [after_maps, if_neg hp]
  rw [remapBands_ok x a.interp hi _ _ _ _ hs ⟨hc.2, hc.1⟩]
  have : ¬ ((a.file.h, a.file.w) = (((undEnv x c).mkMaps (undistIntrinsic c.imSize (x.undistort c) (lastAlpha alpha calls))).h,
      ((undEnv x c).mkMaps (undistIntrinsic c.imSize (x.undistort c) (lastAlpha alpha calls))).w)) := by
    intro h
    apply hz
    have h' : (a.file.h, a.file.w) = (c.imSize.2, c.imSize.1) := h
    simp only [Prod.mk.injEq] at h'
    rw [h'.1, h'.2]
  simp only [if_neg this, Res.ok_bind, List.map_map]
  rfl

/-- C84: an image with a side of 32767 pixels passes the size check, and then OpenCV refuses it. -/
theorem C84_limit_fails (c : CamObj) (hp : c.type ≠ .pinhole) (alpha : ℝ) (distort : Bool) (calls : List (Call V)) (a : ReadArgs V)
    (hd : lastDistort distort calls = false) (n : V) (hn : a.nodata = some n)
    (ht : a.dtype.getD a.file.dtype ∈ ["uint8", "uint16", "int16", "float32", "float64"]) (hw : a.file.w = 32767)
    (hh : a.file.h ≤ 32767) (hi : a.interp ∈ ["nearest", "average", "bilinear", "cubic", "lanczos"]) (bs : List (Band V)) (hne : bs ≠ [])
    (hb : Asked a.file a.indexes bs) :
    (read x c (after x c alpha distort calls) a).2 = .error .cvError := by
  unfold read
  rw [(baseRead_iff x _ _ _ _).2 ⟨bs, hb, rfl⟩]
  simp only [after_distort, hd, Bool.false_eq_true, if_false, hn, undistortIm]
  rw [validate_ok c _ _ _ _ ht (by omega)]
  simp only [after_maps, if_neg hp]
  obtain ⟨b, bs', rfl⟩ := List.exists_cons_of_ne_nil hne
  have hi' : a.interp ∈ interpNames := hi
  simp [remapBands, hi', cvRemap, hw, Res.error_bind]

/-- C84: images with other data types or larger sides are refused, unless there is distortion. -/
theorem C84_refuses (c : CamObj) (s : UndState Maps) (hd : s.distort = false) (a : ReadArgs V) (n : V) (hn : a.nodata = some n)
    (bs : List (Band V)) (hb : Asked a.file a.indexes bs)
    (h : a.dtype.getD a.file.dtype ∉ ["uint8", "uint16", "int16", "float32", "float64"] ∨ 32767 < a.file.h ∨ 32767 < a.file.w) :
    (read x c s a).2 = .error .valueError := by
  unfold read
  rw [(baseRead_iff x _ _ _ _).2 ⟨bs, hb, rfl⟩]
  simp only [hd, Bool.false_eq_true, if_false, hn, undistortIm]
  rw [validate_error c _ _ _ _ h]

/-! ## A camera with distortion -/

/-- A Brown camera with one coefficient. -/
def demoParams : Dict String (Py ℝ) :=
  [("cam_type", .str "brown"), ("im_size", .tuple [.int 10, .int 5]), ("focal_len", .int 1), ("k1", .int 8)]

def demoFile : CamFile := ⟨.brown, 10, 5, .inl 1, none, fun n => if n = "k1" then some 8 else none⟩

theorem demo_params : Params demoParams demoFile := by
  refine ⟨rfl, rfl, ⟨.int 1, Or.inr ⟨1, rfl, by norm_num⟩, rfl⟩, rfl, ?_, ?_⟩
  · intro n hn
    have : n = "cx" ∨ n = "cy" ∨ n = "k1" ∨ n = "k2" ∨ n = "p1" ∨ n = "p2" ∨ n = "k3" := by
      revert n
      decide
    rcases this with rfl | rfl | rfl | rfl | rfl | rfl | rfl
    all_goals first | exact rfl | exact ⟨.int 8, Or.inr ⟨8, rfl, by norm_num⟩, rfl⟩
  · intro n hn
    simp only [demoParams, List.map_cons, List.map_nil, List.mem_cons, List.not_mem_nil, or_false] at hn
    rcases hn with rfl | rfl | rfl | rfl <;> decide

/-- Nearest interpolation and exact float32 values. -/
def demoExt : Ext ℤ where
  undistort := fun _ p => (kMat (10, 10) (9 / 2, 2))⁻¹.mulVec (homog p)
  f32 := id
  samp := fun _ h w b u v =>
    if 0 ≤ round u ∧ 0 ≤ round v ∧ round u < w ∧ round v < h then some (b (round v).toNat (round u).toNat) else none
  conv := fun _ v => v

/-- An image file whose pixels are numbered. -/
def demoIm : Image ℤ := ⟨"uint8", 5, 10, [fun i j => 10 * i + j]⟩

/-- Column 7 of the undistorted image shows column 8 of the source. -/
example : ∃ c im r, createCamera demoParams [] = .ok c ∧
    (read demoExt c (after demoExt c 1 true [.setDistort false]) { file := demoIm, nodata := some 0, interp := "nearest" }).2 = .ok im ∧
    im.bands[0]? = some r ∧ r 2 7 = 28 := by
  obtain ⟨c, h1, h2, h3⟩ := C81_camera demoParams [] demoFile demo_params (by intro n h; cases h)
    (by simp [CamFile.focalPx, demoFile])
  have ht : c.type = .brown := by
    have : createCamera demoParams [] = construct .brown (Dict.erase demoParams "cam_type") := rfl
    exact (construct_shape _ _ _ (this ▸ h1)).1
  obtain ⟨im, g1, g2, g3⟩ := C84_shows demoExt demoParams [] c h1 (by rw [ht]; decide) 1 true [.setDistort false]
    { file := demoIm, nodata := some 0, interp := "nearest" } rfl 0 rfl (by decide) (by decide) h2.symm (by decide) _ rfl
  have hK : (after demoExt c 1 true [.setDistort false]).Kund = kMat (10, 10) (9 / 2, 2) := by
    have : (after demoExt c 1 true [.setDistort false]).Kund = undistIntrinsic c.imSize (demoExt.undistort c) 1 := by
      show (if decide (c.type = .pinhole) = true then _ else _) = _
      rw [ht]
      rfl
    rw [this]
    exact C44_no_distortion c.imSize (by rw [h2]; decide) (by rw [h2]; decide) _ _ (by norm_num) 1
  have hX : FrameCam.camCoords (extrinsicR (0, 0, 0)) 0 ![1 / 4, 0, -1] = ![1 / 4, 0, 1] := by
    funext i
    fin_cases i <;> simp [FrameCam.camCoords, extrinsicR, opkToRotation, rotX, rotY, rotZ, flipYZ, Matrix.mulVec, dotProduct,
      Fin.sum_univ_three]
  rw [hK] at g3
  obtain ⟨u, v, k1, k2⟩ := g3 0 (0, 0, 0) ![1 / 4, 0, -1] 2 7 (by rw [kMat_det]; norm_num) (by rw [hX]; simp)
    (by rw [ht]; intro h; cases h) (by
      rw [undPixel, hX, Create.vec_eq (FrameCam.unitDepth _) (by simp [FrameCam.unitDepth]), Create.dotK_kMat]
      simp [FrameCam.unitDepth]
      norm_num)
  rw [h3 0 (0, 0, 0) _ (by have := congrFun hX 2; simp only [FrameCam.camCoords] at this; rw [this]; simp)] at k1
  have hp : demoFile.pixel 0 (0, 0, 0) ![1 / 4, 0, -1] = (.val (33 / 4), .val 2) := by
    unfold CamFile.pixel
    have hX' : (extrinsicR (0, 0, 0)).transpose.mulVec (![1 / 4, 0, -1] - 0) = ![1 / 4, 0, 1] := hX
    rw [hX']
    simp [CamFile.distorted, demoFile, CamFile.get, CamFile.focalPx, CamFile.centrePx]
    norm_num
  rw [hp] at k1
  cases k1
  obtain ⟨r, hr⟩ : ∃ r, im.bands[0]? = some r := by
    have : 0 < im.bands.length := by rw [g2]; decide
    exact ⟨_, List.getElem?_eq_getElem this⟩
  refine ⟨c, im, r, h1, g1, hr, ?_⟩
  rw [k2 0 _ r rfl hr]
  have r1 : round (33 / 4 : ℝ) = 8 := by
    rw [round_eq, Int.floor_eq_iff]
    norm_num
  have r2 : round (2 : ℝ) = 2 := by
    rw [round_eq, Int.floor_eq_iff]
    norm_num
  simp only [demoExt, id, r1, r2, demoIm]
  decide

end

end Verif.ReadIm
