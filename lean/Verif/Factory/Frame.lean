import Verif.Base.Err
import Verif.Base.Dict

/-!
# C26, C27: frame camera factory
-/

set_option autoImplicit false

namespace Verif.Factory

open Res (ok_bind error_bind)

/-- Exterior parameters of an image, as in the values of `FrameCameras._ext_param_dict`.  `xyz` and `opk` are
`none` when the key is missing. -/
structure ExtParam (X : Type) where
  camera : Option String
  xyz : Option X
  opk : Option X

/-- A camera object: `_R`, `_T` (`pose`), and all its other fields (`int`). -/
structure Cam (J P : Type) where
  int : J
  pose : P

/-- The parameters of a factory that its methods do not change, with the functions that are not modelled
here: `Path.name`, `Path.stem`, `create_camera` (orthority/camera.py:1491-1514, with `cam_kwargs`), and
`FrameCamera._get_extrinsic` (orthority/camera.py:697-715). -/
structure FrameEnv (I J P X : Type) where
  name : String → String
  stem : String → String
  create : I → Res (Cam J P)
  extrinsic : X → X → Res P
  intParam : Dict String I
  /-- An empty parameter dictionary is `none`. -/
  extParam : Dict String (Option (ExtParam X))

/-- The camera objects that have been made, and `FrameCameras._cameras` (a reference is a position in
`heap`). -/
structure FrameState (J P : Type) where
  heap : List (Cam J P)
  cams : Dict (Option String) ℕ

variable {I J P X : Type}

/-- State after orthority/factory.py:98-109 `FrameCameras.__init__`. -/
def FrameState.init : FrameState J P := ⟨[], []⟩

/-- `d.get(name, d.get(stem, None))`, orthority/factory.py:208-210, 354 and 367-369. -/
def byName {α : Type} (d : Dict String α) (name stem : String) : Option α :=
  match Dict.get? d name with
  | some v => some v
  | none => Dict.get? d stem

/-- orthority/factory.py:205-213: exterior parameters in `FrameCameras.get`. -/
def FrameEnv.ext (env : FrameEnv I J P X) (f : String) : Res (ExtParam X) :=
  match byName env.extParam (env.name f) (env.stem f) with
  | some (some e) => .ok e
  | _ => .error .paramError

/-- orthority/factory.py:215-226: interior parameters in `FrameCameras.get`. -/
def FrameEnv.int (env : FrameEnv I J P X) (id : Option String) : Res I :=
  match id with
  | some (s) => if s ≠ "" then
      match Dict.get? env.intParam s with
      | some i => .ok i
      | none => .error .paramError
    else match env.intParam with
      | [(_, i)] => .ok i
      | _ => .error .paramError
  | none => match env.intParam with
    | [(_, i)] => .ok i
    | _ => .error .paramError

/-- `camera.update(xyz=ext_param['xyz'], opk=ext_param['opk'])`: the new pose. -/
def FrameEnv.newPose (env : FrameEnv I J P X) (e : ExtParam X) : Res P :=
  match e.xyz with
  | none => .error .keyError
  | some x => match e.opk with
    | none => .error .keyError
    | some o => env.extrinsic x o

/-- orthority/factory.py:228-230: make the camera on first use. -/
def FrameEnv.camera (env : FrameEnv I J P X) (s : FrameState J P) (id : Option String) (i : I) :
    Res (ℕ × FrameState J P) :=
  match Dict.get? s.cams id with
  | some r => .ok (r, s)
  | none => match env.create i with
    | .error e => .error e
    | .ok c => .ok (s.heap.length, ⟨s.heap ++ [c], Dict.set s.cams id s.heap.length⟩)

/-- orthority/factory.py:232-234 and orthority/camera.py:814 (`FrameCamera.update`). -/
def FrameState.update (s : FrameState J P) (r : ℕ) (p : P) : FrameState J P :=
  ⟨s.heap.modify r fun c => { c with pose := p }, s.cams⟩

/-- orthority/factory.py:205-234 `FrameCameras.get`: the reference of the camera that is returned, and the
new state. -/
def FrameEnv.get (env : FrameEnv I J P X) (s : FrameState J P) (f : String) : Res ℕ × FrameState J P :=
  match env.ext f with
  | .error e => (.error e, s)
  | .ok ext => match env.int ext.camera with
    | .error e => (.error e, s)
    | .ok i => match env.camera s ext.camera i with
      | .error e => (.error e, s)
      | .ok (r, s') => match env.newPose ext with
        | .error e => (.error e, s')
        | .ok p => (.ok r, s'.update r p)

/-- State after a history of `get` calls. -/
def FrameEnv.run (env : FrameEnv I J P X) (s : FrameState J P) (hist : List String) : FrameState J P :=
  hist.foldl (fun s f => (env.get s f).2) s

/-- The camera that a call of `get` returns, as it is on return. -/
def FrameEnv.getCam (env : FrameEnv I J P X) (s : FrameState J P) (f : String) : Res (Option (Cam J P)) :=
  match env.get s f with
  | (.error e, _) => .error e
  | (.ok r, s') => .ok s'.heap[r]?

/-! ## Specification -/

/-- The camera of an image, from the parameters only: interior parameters of the camera ID of the image, pose
of the image. -/
def FrameEnv.spec (env : FrameEnv I J P X) (f : String) : Res (Cam J P) := do
  let ext ← env.ext f
  let i ← env.int ext.camera
  let c ← env.create i
  let p ← env.newPose ext
  return ⟨c.int, p⟩

/-- The cached cameras are those of their camera IDs. -/
structure Inv (env : FrameEnv I J P X) (s : FrameState J P) : Prop where
  cached : ∀ id r, Dict.get? s.cams id = some r →
    ∃ i c c', env.int id = .ok i ∧ env.create i = .ok c ∧ s.heap[r]? = some c' ∧ c'.int = c.int
  inj : ∀ id id' r, Dict.get? s.cams id = some r → Dict.get? s.cams id' = some r → id = id'

theorem Inv.init (env : FrameEnv I J P X) : Inv env .init :=
  ⟨fun _ _ h => by simp [FrameState.init, Dict.get?_nil] at h,
   fun _ _ _ h => by simp [FrameState.init, Dict.get?_nil] at h⟩

theorem Inv.camera {env : FrameEnv I J P X} {s s' : FrameState J P} {id : Option String} {i : I} {r : ℕ}
    (hs : Inv env s) (hi : env.int id = .ok i) (h : env.camera s id i = .ok (r, s')) :
    Inv env s' ∧ Dict.get? s'.cams id = some r := by
  unfold FrameEnv.camera at h
  cases hc : Dict.get? s.cams id with
  | some r' =>
    rw [hc] at h
    simp only [Except.ok.injEq, Prod.mk.injEq] at h
    obtain ⟨rfl, rfl⟩ := h
    exact ⟨hs, hc⟩
  | none =>
    rw [hc] at h
    simp only at h
    cases hm : env.create i with
    | error e => rw [hm] at h; exact absurd h (by simp)
    | ok c =>
      rw [hm] at h
      simp only [Except.ok.injEq, Prod.mk.injEq] at h
      obtain ⟨rfl, rfl⟩ := h
      refine ⟨⟨?_, ?_⟩, by simp [Dict.get?_set]⟩
      · intro id' r' h'
        simp only [Dict.get?_set] at h'
        by_cases he : id = id'
        · subst he
          simp only [if_true, Option.some.injEq] at h'
          subst h'
          exact ⟨i, c, c, hi, hm, by simp, rfl⟩
        · rw [if_neg he] at h'
          obtain ⟨i1, c1, c2, h1, h2, h3, h4⟩ := hs.cached id' r' h'
          refine ⟨i1, c1, c2, h1, h2, ?_, h4⟩
          rw [List.getElem?_append_left (List.getElem?_eq_some_iff.1 h3).1]
          exact h3
      · have hlt : ∀ id' r', Dict.get? s.cams id' = some r' → r' < s.heap.length := by
          intro id' r' h'
          obtain ⟨i1, c1, c2, h1, h2, h3, h4⟩ := hs.cached id' r' h'
          exact (List.getElem?_eq_some_iff.1 h3).1
        intro id1 id2 r' h1 h2
        simp only [Dict.get?_set] at h1 h2
        by_cases he1 : id = id1 <;> by_cases he2 : id = id2
        · rw [← he1, ← he2]
        · rw [if_pos he1] at h1
          rw [if_neg he2] at h2
          have := hlt _ _ h2
          simp only [Option.some.injEq] at h1
          omega
        · rw [if_pos he2] at h2
          rw [if_neg he1] at h1
          have := hlt _ _ h1
          simp only [Option.some.injEq] at h2
          omega
        · rw [if_neg he1] at h1
          rw [if_neg he2] at h2
          exact hs.inj _ _ _ h1 h2

theorem Inv.update {env : FrameEnv I J P X} {s : FrameState J P} (hs : Inv env s) (r : ℕ) (p : P) :
    Inv env (s.update r p) := by
  refine ⟨fun id r' h => ?_, hs.inj⟩
  obtain ⟨i, c, c', h1, h2, h3, h4⟩ := hs.cached id r' h
  by_cases hr : r = r'
  · subst hr
    exact ⟨i, c, { c' with pose := p }, h1, h2, by simp [FrameState.update, h3], h4⟩
  · exact ⟨i, c, c', h1, h2, by simp [FrameState.update, h3, hr], h4⟩

theorem Inv.get {env : FrameEnv I J P X} {s : FrameState J P} (hs : Inv env s) (f : String) :
    Inv env (env.get s f).2 := by
  unfold FrameEnv.get
  cases h1 : env.ext f with
  | error e => exact hs
  | ok ext =>
    simp only
    cases h2 : env.int ext.camera with
    | error e => exact hs
    | ok i =>
      simp only
      cases h3 : env.camera s ext.camera i with
      | error e => exact hs
      | ok q =>
        obtain ⟨r, s'⟩ := q
        simp only
        have h4 := (hs.camera h2 h3).1
        cases h5 : env.newPose ext with
        | error e => exact h4
        | ok p => exact h4.update r p

theorem Inv.run {env : FrameEnv I J P X} {s : FrameState J P} (hs : Inv env s) (hist : List String) :
    Inv env (env.run s hist) := by
  induction hist generalizing s with
  | nil => exact hs
  | cons f hist ih => exact ih (hs.get f)

theorem getCam_eq {env : FrameEnv I J P X} {s : FrameState J P} (hs : Inv env s) (f : String) :
    env.getCam s f = (env.spec f).map some := by
  unfold FrameEnv.getCam FrameEnv.get FrameEnv.spec
  cases h1 : env.ext f with
  | error e => rfl
  | ok ext =>
    simp only [ok_bind]
    cases h2 : env.int ext.camera with
    | error e => rfl
    | ok i =>
      simp only [ok_bind]
      cases hc : Dict.get? s.cams ext.camera with
      | some r =>
        obtain ⟨i', c, c', h3, h4, h5, h6⟩ := hs.cached _ _ hc
        rw [h2] at h3
        simp only [Except.ok.injEq] at h3
        subst h3
        rw [h4]
        simp only [FrameEnv.camera, hc, ok_bind]
        cases h7 : env.newPose ext with
        | error e => rfl
        | ok p => simp [FrameState.update, h5, h6, Except.map, ok_bind, pure, Except.pure]
      | none =>
        simp only [FrameEnv.camera, hc]
        cases h4 : env.create i with
        | error e => rfl
        | ok c =>
          simp only [ok_bind]
          cases h7 : env.newPose ext with
          | error e => rfl
          | ok p => simp [FrameState.update, Except.map, ok_bind, pure, Except.pure]

/-- C26: after any history of calls, `get` gives what the parameters of the image alone define: the camera with
the interior parameters of its camera ID and the pose of the image, or the same error. -/
theorem C26_get (env : FrameEnv I J P X) (hist : List String) (f : String) :
    env.getCam (env.run .init hist) f = (env.spec f).map some :=
  getCam_eq ((Inv.init env).run hist) f

/-- C26: `get` gives a camera for every image with complete parameters. -/
theorem C26_get_ok (env : FrameEnv I J P X) (hist : List String) (f : String) (e : ExtParam X) (i : I)
    (x o : X) (c : Cam J P) (p : P)
    (hext : Dict.get? env.extParam (env.name f) = some (some e) ∨
      (Dict.get? env.extParam (env.name f) = none ∧ Dict.get? env.extParam (env.stem f) = some (some e)))
    (hint : (∃ id, e.camera = some id ∧ id ≠ "" ∧ Dict.get? env.intParam id = some i) ∨
      ((e.camera = none ∨ e.camera = some "") ∧ ∃ k, env.intParam = [(k, i)]))
    (hx : e.xyz = some x) (ho : e.opk = some o) (hc : env.create i = .ok c) (hp : env.extrinsic x o = .ok p) :
    env.getCam (env.run .init hist) f = .ok (some ⟨c.int, p⟩) := by
  rw [C26_get]
  have h1 : env.ext f = .ok e := by
    unfold FrameEnv.ext byName
    rcases hext with h | ⟨h, h'⟩
    · rw [h]
    · rw [h, h']
  have h2 : env.int e.camera = .ok i := by
    unfold FrameEnv.int
    rcases hint with ⟨id, h3, h4, h5⟩ | ⟨h3, k, h4⟩
    · rw [h3]
      simp [h4, h5]
    · rcases h3 with h3 | h3 <;> simp [h3, h4]
  have h3 : env.newPose e = .ok p := by simp [FrameEnv.newPose, hx, ho, hp]
  simp [FrameEnv.spec, h1, h2, h3, hc, Except.map, ok_bind, pure, Except.pure]

/-- The exterior parameters that the factory has for a file: those of its name, else those of its stem. -/
def FoundExt (env : FrameEnv I J P X) (f : String) (e : Option (ExtParam X)) : Prop :=
  Dict.get? env.extParam (env.name f) = some e ∨
    (Dict.get? env.extParam (env.name f) = none ∧ Dict.get? env.extParam (env.stem f) = some e)

/-- C26: an image without exterior parameters, with a camera ID without interior parameters, or without camera
ID when there is not exactly one camera, is refused with `ParamError`. -/
theorem C26_get_missing (env : FrameEnv I J P X) (hist : List String) (f : String)
    (h : (∀ e, ¬ FoundExt env f (some e)) ∨
      (∃ e id, FoundExt env f (some e) ∧ e.camera = some id ∧ id ≠ "" ∧ Dict.get? env.intParam id = none) ∨
      ∃ e, FoundExt env f (some e) ∧ (e.camera = none ∨ e.camera = some "") ∧ env.intParam.length ≠ 1) :
    env.getCam (env.run .init hist) f = .error .paramError := by
  have hfound : ∀ e, FoundExt env f (some e) → env.ext f = .ok e := by
    intro e he
    unfold FrameEnv.ext byName
    rcases he with h | ⟨h, h'⟩
    · rw [h]
    · rw [h, h']
  rw [C26_get]
  rcases h with h | ⟨e, id, h1, h2, h3, h4⟩ | ⟨e, h1, h2, h3⟩
  · have : env.ext f = .error .paramError := by
      unfold FrameEnv.ext byName
      cases h1 : Dict.get? env.extParam (env.name f) with
      | some v =>
        cases v with
        | none => rfl
        | some e => exact absurd (Or.inl h1) (h e)
      | none =>
        cases h2 : Dict.get? env.extParam (env.stem f) with
        | none => rfl
        | some v =>
          cases v with
          | none => rfl
          | some e => exact absurd (Or.inr ⟨h1, h2⟩) (h e)
    simp [FrameEnv.spec, this, error_bind, Except.map]
  · have h6 : env.int e.camera = .error .paramError := by simp [FrameEnv.int, h2, h3, h4]
    simp [FrameEnv.spec, hfound e h1, h6, error_bind, ok_bind, Except.map]
  · have h4 : (match env.intParam with
        | [(_, i)] => .ok i
        | _ => .error .paramError : Res I) = .error .paramError := by
      cases hi : env.intParam with
      | nil => rfl
      | cons a l =>
        cases l with
        | nil => exact absurd (by rw [hi]; rfl) h3
        | cons b l => rfl
    have h6 : env.int e.camera = .error .paramError := by
      unfold FrameEnv.int
      rcases h2 with h2 | h2 <;> rw [h2]
      · exact h4
      · simpa using h4
    simp [FrameEnv.spec, hfound e h1, h6, error_bind, ok_bind, Except.map]

/-- C26: exterior parameters without position or orientation are refused with `KeyError`. -/
theorem C26_get_incomplete (env : FrameEnv I J P X) (hist : List String) (f : String) (e : ExtParam X) (i : I)
    (c : Cam J P) (hext : FoundExt env f (some e))
    (hint : (∃ id, e.camera = some id ∧ id ≠ "" ∧ Dict.get? env.intParam id = some i) ∨
      ((e.camera = none ∨ e.camera = some "") ∧ ∃ k, env.intParam = [(k, i)]))
    (hc : env.create i = .ok c) (h : e.xyz = none ∨ e.opk = none) :
    env.getCam (env.run .init hist) f = .error .keyError := by
  rw [C26_get]
  have h1 : env.ext f = .ok e := by
    unfold FrameEnv.ext byName
    rcases hext with h | ⟨h, h'⟩
    · rw [h]
    · rw [h, h']
  have h2 : env.int e.camera = .ok i := by
    unfold FrameEnv.int
    rcases hint with ⟨id, h3, h4, h5⟩ | ⟨h3, k, h4⟩
    · rw [h3]
      simp [h4, h5]
    · rcases h3 with h3 | h3 <;> simp [h3, h4]
  have h3 : env.newPose e = .error .keyError := by
    unfold FrameEnv.newPose
    cases hx : e.xyz with
    | none => rfl
    | some x =>
      cases ho : e.opk with
      | none => rfl
      | some o => simp [hx, ho] at h
  simp [FrameEnv.spec, h1, h2, h3, hc, Except.map, ok_bind]

/-- A factory with two images of one camera and one image of another. -/
def exEnv : FrameEnv ℕ ℕ ℕ ℕ where
  name f := f
  stem f := if f = "a.tif" then "a" else f
  create i := .ok ⟨i, 0⟩
  extrinsic x o := .ok (10 * x + o)
  intParam := [("c", 7), ("d", 8)]
  extParam := [("a", some ⟨some "c", some 1, some 2⟩), ("b.tif", some ⟨some "c", some 3, some 4⟩),
    ("e.tif", some ⟨some "d", some 5, some 6⟩)]

example : exEnv.getCam (exEnv.run .init ["a.tif", "e.tif", "none.tif"]) "b.tif" = .ok (some ⟨7, 34⟩) := by rfl

example : exEnv.getCam (exEnv.run .init ["a.tif", "b.tif"]) "none.tif" = .error .paramError := by rfl

/-- Two cameras, and an image without a camera ID. -/
example : ({ exEnv with extParam := [("f.tif", some ⟨none, some 1, some 2⟩)] } : FrameEnv ℕ ℕ ℕ ℕ).getCam .init "f.tif" =
    .error .paramError :=
  C26_get_missing _ [] _ (Or.inr (Or.inr ⟨_, Or.inl rfl, Or.inl rfl, by decide⟩))

/-- C27: a camera that was handed out for one image has the pose of another after `get` is called for the
other. -/
theorem C27_fails :
    ∃ r, exEnv.get .init "a.tif" = (.ok r, exEnv.run .init ["a.tif"]) ∧
      exEnv.spec "a.tif" = .ok ⟨7, 12⟩ ∧ (exEnv.run .init ["a.tif"]).heap[r]? = some ⟨7, 12⟩ ∧
      (exEnv.run .init ["a.tif", "b.tif"]).heap[r]? = some ⟨7, 34⟩ :=
  ⟨0, rfl, rfl, rfl, rfl⟩

theorem get_keeps {env : FrameEnv I J P X} {s : FrameState J P} (hs : Inv env s) {id : Option String} {r : ℕ}
    {c : Cam J P} (hr : Dict.get? s.cams id = some r) (hc : s.heap[r]? = some c) (g : String)
    (hg : ∀ e, env.ext g = .ok e → e.camera ≠ id ∨ (∀ p, env.newPose e = .ok p → p = c.pose)) :
    Dict.get? (env.get s g).2.cams id = some r ∧ (env.get s g).2.heap[r]? = some c := by
  unfold FrameEnv.get
  cases h1 : env.ext g with
  | error e => exact ⟨hr, hc⟩
  | ok ext =>
    simp only
    cases h2 : env.int ext.camera with
    | error e => exact ⟨hr, hc⟩
    | ok i =>
      simp only
      cases h3 : env.camera s ext.camera i with
      | error e => exact ⟨hr, hc⟩
      | ok q =>
        obtain ⟨r', s'⟩ := q
        simp only
        have h4 := hs.camera h2 h3
        have h5 : Dict.get? s'.cams id = some r ∧ s'.heap[r]? = some c := by
          unfold FrameEnv.camera at h3
          cases hk : Dict.get? s.cams ext.camera with
          | some r'' =>
            rw [hk] at h3
            simp only [Except.ok.injEq, Prod.mk.injEq] at h3
            rw [← h3.2]
            exact ⟨hr, hc⟩
          | none =>
            rw [hk] at h3
            simp only at h3
            cases hm : env.create i with
            | error e => rw [hm] at h3; exact absurd h3 (by simp)
            | ok c' =>
              rw [hm] at h3
              simp only [Except.ok.injEq, Prod.mk.injEq] at h3
              rw [← h3.2]
              have hne : ext.camera ≠ id := by
                rintro rfl
                rw [hk] at hr
                exact absurd hr (by simp)
              refine ⟨by simp [Dict.get?_set, hne, hr], ?_⟩
              simp only
              rw [List.getElem?_append_left (List.getElem?_eq_some_iff.1 hc).1]
              exact hc
        cases h6 : env.newPose ext with
        | error e => exact h5
        | ok p =>
          refine ⟨h5.1, ?_⟩
          by_cases hid : ext.camera = id
          · rcases hg ext h1 with h7 | h7
            · exact absurd hid h7
            · have := h7 p h6
              subst this
              by_cases hrr : r' = r
              · subst hrr; simp [FrameState.update, h5.2]
              · simp [FrameState.update, hrr, h5.2]
          · have hrr : r' ≠ r := by
              rintro rfl
              exact hid (h4.1.inj _ _ _ h4.2 h5.1)
            simp [FrameState.update, hrr, h5.2]

/-- C27, the part that holds: a camera that was handed out keeps its interior parameters and its pose while
`get` is called only for images of other camera IDs, and images with the same pose (e.g. the same image).
Missing: other images of the same camera (`C27_fails`). -/
theorem C27_partial (env : FrameEnv I J P X) (hist later : List String) (f : String) (e : ExtParam X) (r : ℕ)
    (he : env.ext f = .ok e) (hget : (env.get (env.run .init hist) f).1 = .ok r)
    (hlater : ∀ g ∈ later, ∀ e', env.ext g = .ok e' → e'.camera ≠ e.camera ∨ env.newPose e' = env.newPose e) :
    ∃ c, env.spec f = .ok c ∧ (env.run .init (hist ++ f :: later)).heap[r]? = some c := by
  have hs := (Inv.init env).run hist
  have hcam := getCam_eq hs f
  obtain ⟨s, hsd⟩ : ∃ s, s = env.run .init hist := ⟨_, rfl⟩
  rw [← hsd] at hs hget hcam
  have hrun : env.run .init (hist ++ f :: later) = env.run (env.get s f).2 later := by
    simp [FrameEnv.run, hsd]
  rw [hrun]
  -- the camera as it is returned
  have hpair : env.get s f = (.ok r, (env.get s f).2) := by rw [← hget]
  unfold FrameEnv.getCam at hcam
  rw [hpair] at hcam
  simp only at hcam
  cases hspec : env.spec f with
  | error x => rw [hspec] at hcam; exact absurd hcam (by simp [Except.map])
  | ok c =>
    rw [hspec] at hcam
    simp only [Except.map, Except.ok.injEq] at hcam
    refine ⟨c, rfl, ?_⟩
    have hpose : env.newPose e = .ok c.pose := by
      unfold FrameEnv.spec at hspec
      rw [he] at hspec
      simp only [ok_bind] at hspec
      cases h2 : env.int e.camera with
      | error x => rw [h2] at hspec; simp [error_bind] at hspec
      | ok i =>
        rw [h2] at hspec
        simp only [ok_bind] at hspec
        cases h3 : env.create i with
        | error x => rw [h3] at hspec; simp [error_bind] at hspec
        | ok c' =>
          rw [h3] at hspec
          simp only [ok_bind] at hspec
          cases h4 : env.newPose e with
          | error x => rw [h4] at hspec; simp at hspec
          | ok p =>
            rw [h4] at hspec
            simp only [ok_bind, pure, Except.pure, Except.ok.injEq] at hspec
            rw [← hspec]
    have hkey : Dict.get? (env.get s f).2.cams e.camera = some r := by
      revert hget
      unfold FrameEnv.get
      rw [he]
      simp only
      cases h2 : env.int e.camera with
      | error x => intro h; exact absurd h (by simp)
      | ok i =>
        simp only
        cases h3 : env.camera s e.camera i with
        | error x => intro h; exact absurd h (by simp)
        | ok q =>
          obtain ⟨r', s'⟩ := q
          simp only
          rw [hpose]
          intro h
          simp only [Except.ok.injEq] at h
          subst h
          exact (hs.camera h2 h3).2
    have hinv := hs.get f
    generalize (env.get s f).2 = s1 at hkey hcam hinv
    induction later generalizing s1 with
    | nil => exact hcam
    | cons g later ih =>
      have hk := get_keeps hinv hkey hcam g (by
        intro e' he'
        rcases hlater g (by simp) e' he' with h | h
        · exact Or.inl h
        · right
          intro p hp
          rw [h, hpose] at hp
          simpa using hp.symm)
      exact ih (fun g' hg' => hlater g' (by simp [hg'])) (by simp [FrameEnv.run, hsd]) _ hk.1 hk.2 (hinv.get g)

example : ∃ r, (exEnv.get (exEnv.run .init ["e.tif"]) "a.tif").1 = .ok r ∧
    (exEnv.run .init (["e.tif"] ++ "a.tif" :: ["e.tif", "a.tif"])).heap[r]? = some ⟨7, 12⟩ := ⟨1, rfl, rfl⟩

end Verif.Factory
