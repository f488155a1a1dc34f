import Verif.Cli.Props
import Verif.Base.Dict

/-!
# The legacy command (C79)
-/

set_option autoImplicit false

namespace Verif.Cli

open Res (ok_bind error_bind)

/-! ## Model -/

/-- A value of the configuration: a string, or something else. -/
inductive CVal (V : Type)
  | str (s : String)
  | val (v : V)
  deriving DecidableEq

section
variable {V : Type} [DecidableEq V]

/-- `cubic_spline` in the value of a key is replaced, orthority/cli.py:1303-1308. -/
def fixInterp (o : Dict String (CVal V)) (key : String) : Dict String (CVal V) :=
  if o.get? key = some (.str "cubic_spline") then o.set key (.str "cubic") else o

/-- The keyword arguments of `Ortho.process`, orthority/cli.py:1296-1309: the `ortho` section without the keys that are popped. -/
def processArgs (o : Dict String (CVal V)) : Dict String (CVal V) :=
  let o := (o.erase "crs").erase "dem_band"
  let o := ["driver", "tile_size", "nodata", "interleave", "photometric"].foldl Dict.erase o
  let o := ["interp", "dem_interp"].foldl fixInterp o
  o.erase "full_remap"

end

section
variable {J P Im : Type}

/-- The position and orientation file, orthority/cli.py:1321-1329: rows with a name and numbers, or the exception of `float` for
the row.  Later rows replace earlier ones. -/
def legacyPoses : Dict String P → List (String × Res P) → Res (Dict String P)
  | d, [] => .ok d
  | d, (name, p) :: rows => do
    let p ← p
    legacyPoses (d.set name p) rows

/-- A source image: identity, directory, file name without suffix, and the outcome of opening it. -/
structure LSrc (Im : Type) where
  im : Im
  parent : String
  stem : String
  opened : Res Unit

/-- The variables `camera` (interior and pose, `None` before the first image) and `ortho_dir`. -/
structure LState (J P : Type) where
  camera : Option (J × P)
  orthoDir : Option String

/-- One image, orthority/cli.py:1334-1367.  `mk` is the outcome of creating the camera from the configuration, `proc` what `Ortho`
and `process` do with an image and a camera, and `overwrite` is from the configuration.  The `Exception` for an image without a
pose is `runtimeError` here.  The warning on the image size is not modelled. -/
def legacyOne (mk : Res J) (poses : Dict String P) (proc : Im → J → P → Proc) (overwrite : Bool) (st : LState J P)
    (fs : Fs (J × P) Im) (s : LSrc Im) : Fs (J × P) Im × Res (LState J P) :=
  match poses.get? s.stem with
  | none => (fs, .error .runtimeError)
  | some pose =>
    let dir := match st.orthoDir with
      | none => s.parent
      | some d => if d = "" then s.parent else d
    let p := orthoPath dir s.stem
    match s.opened with
    | .error e => (fs, .error e)
    | .ok () =>
      match (match st.camera with
        | none => do
          let j ← mk
          pure (j, pose)
        | some (j, _) => pure (j, pose) : Res (J × P)) with
      | .error e => (fs, .error e)
      | .ok cam =>
        match proc s.im cam.1 cam.2 with
        | .raised e => (fs, .error e)
        | r =>
          if (fs p).isSome ∧ overwrite = false then (fs, .error .fileExistsError)
          else match r with
            | .done => ((fun q => if q = p then some (.done s.im cam) else fs q), .ok ⟨some cam, some dir⟩)
            | .aborted e | .raised e => ((fun q => if q = p then some .broken else fs q), .error e)

/-- The loop over images, orthority/cli.py:1331-1367. -/
def legacyLoop (mk : Res J) (poses : Dict String P) (proc : Im → J → P → Proc) (overwrite : Bool) (st : LState J P)
    (fs : Fs (J × P) Im) : List (LSrc Im) → Fs (J × P) Im × Res Unit
  | [] => (fs, .ok ())
  | s :: ss => match legacyOne mk poses proc overwrite st fs s with
    | (fs, .error e) => (fs, .error e)
    | (fs, .ok st) => legacyLoop mk poses proc overwrite st fs ss

/-- What the command is given: the configuration (or the exception when it is read), the outcomes of its checks in their order,
the camera that the configuration makes, the rows of poses, the images that each source argument matches, `ortho_dir` and
`write_conf`. -/
structure LegacyArgs (Conf J P Im : Type) where
  conf : Res Conf
  cameraConf : Res Unit
  glob : List (List (LSrc Im))
  demExists : Bool
  posesExist : Bool
  rows : List (String × Res P)
  make : Res J
  overwrite : Bool
  orthoDir : Option String
  writeConf : Option String

variable {Conf : Type}

/-- orthority/cli.py:1214-1371 `_simple_ortho`: files, the configuration file written (path and content) and the outcome.  `check_args`
(1244-1263) raises `Exception`, here `runtimeError`; making the directory is not modelled. -/
def legacy (a : LegacyArgs Conf J P Im) (proc : Im → J → P → Proc) (fs : Fs (J × P) Im) :
    Fs (J × P) Im × Option (String × Conf) × Res Unit :=
  match a.conf with
  | .error e => (fs, none, .error e)
  | .ok conf => match a.writeConf with
    | some path => (fs, some (path, conf), .ok ())
    | none => match a.cameraConf with
      | .error e => (fs, none, .error e)
      | .ok () =>
        if a.glob.any List.isEmpty = true ∨ a.demExists = false ∨ a.posesExist = false then
          (fs, none, .error .runtimeError)
        else match legacyPoses [] a.rows with
          | .error e => (fs, none, .error e)
          | .ok poses =>
            let r := legacyLoop a.make poses proc a.overwrite ⟨none, a.orthoDir⟩ fs a.glob.flatten
            (r.1, none, r.2)

end

/-! ## Specification -/

section
variable {J P Im : Type}

/-- The pose in the last row with the name. -/
def LastRow (rows : List (String × Res P)) (name : String) (p : P) : Prop :=
  ∃ pre post, rows = pre ++ (name, .ok p) :: post ∧ ∀ r ∈ post, r.1 ≠ name

/-! ## Theorems -/

variable {V : Type} [DecidableEq V]

theorem get?_fixInterp (o : Dict String (CVal V)) (key k : String) :
    (fixInterp o key).get? k = if k = key ∧ o.get? key = some (.str "cubic_spline") then some (.str "cubic") else o.get? k := by
  unfold fixInterp
  by_cases h : o.get? key = some (.str "cubic_spline")
  · rw [if_pos h, Dict.get?_set]
    by_cases hk : key = k
    · subst hk; simp [h]
    · rw [if_neg hk, if_neg (fun h => hk h.1.symm)]
  · rw [if_neg h, if_neg (fun h' => h h'.2)]

/-- C79: the keyword arguments are the entries of the configuration, without those that have another use or no use, and with
`cubic` for the interpolation type `cubic_spline`. -/
theorem C79_config (o : Dict String (CVal V)) (k : String) :
    (processArgs o).get? k =
      if k ∈ ["crs", "dem_band", "driver", "tile_size", "nodata", "interleave", "photometric", "full_remap"] then none
      else if (k = "interp" ∨ k = "dem_interp") ∧ o.get? k = some (.str "cubic_spline") then some (.str "cubic")
      else o.get? k := by
  by_cases h0 : k ∈ ["crs", "dem_band", "driver", "tile_size", "nodata", "interleave", "photometric", "full_remap"]
  · rw [if_pos h0]
    simp only [List.mem_cons, List.not_mem_nil, or_false] at h0
    simp only [processArgs, List.foldl_cons, List.foldl_nil, Dict.get?_erase, get?_fixInterp]
    rcases h0 with rfl | rfl | rfl | rfl | rfl | rfl | rfl | rfl <;> simp
  · rw [if_neg h0]
    simp only [List.mem_cons, List.not_mem_nil, or_false, not_or] at h0
    obtain ⟨h1, h2, h3, h4, h5, h6, h7, h8⟩ := h0
    simp only [processArgs, List.foldl_cons, List.foldl_nil, Dict.get?_erase, get?_fixInterp]
    by_cases hi : k = "interp"
    · subst hi; simp
    · by_cases hd : k = "dem_interp"
      · subst hd; simp
      · simp [hi, hd, Ne.symm h1, Ne.symm h2, Ne.symm h3, Ne.symm h4, Ne.symm h5, Ne.symm h6, Ne.symm h7, Ne.symm h8]

theorem legacyPoses_get (rows : List (String × Res P)) : ∀ (d poses : Dict String P), legacyPoses d rows = .ok poses → ∀ name p,
    poses.get? name = some p ↔ LastRow rows name p ∨ ((∀ r ∈ rows, r.1 ≠ name) ∧ d.get? name = some p) := by
  induction rows with
  | nil =>
    intro d poses h name p
    injection h with h
    subst h
    constructor
    · exact fun h => .inr ⟨by simp, h⟩
    · rintro (⟨pre, post, h, -⟩ | h)
      · simp at h
      · exact h.2
  | cons r rows ih =>
    obtain ⟨n, q⟩ := r
    intro d poses h name p
    cases q with
    | error e => cases h
    | ok q =>
      rw [ih (d.set n q) poses h name p, Dict.get?_set]
      constructor
      · rintro (⟨pre, post, rfl, hp⟩ | ⟨h1, h2⟩)
        · exact .inl ⟨(n, .ok q) :: pre, post, rfl, hp⟩
        · by_cases hn : n = name
          · rw [if_pos hn] at h2
            injection h2 with h2
            subst hn h2
            exact .inl ⟨[], rows, rfl, h1⟩
          · rw [if_neg hn] at h2
            exact .inr ⟨by simpa [hn] using h1, h2⟩
      · rintro (⟨pre, post, he, hp⟩ | ⟨h1, h2⟩)
        · cases pre with
          | nil =>
            simp only [List.nil_append, List.cons.injEq, Prod.mk.injEq] at he
            obtain ⟨⟨rfl, h⟩, rfl⟩ := he
            injection h with h
            subst h
            exact .inr ⟨hp, by simp⟩
          | cons a pre =>
            simp only [List.cons_append, List.cons.injEq] at he
            exact .inl ⟨pre, post, he.2, hp⟩
        · have hn : n ≠ name := h1 (n, .ok q) (by simp)
          exact .inr ⟨fun r hr => h1 r (by simp [hr]), by rw [if_neg hn]; exact h2⟩

/-- C79: the pose of an image is that of the last row with its name. -/
theorem C79_pose (rows : List (String × Res P)) (poses : Dict String P) (h : legacyPoses [] rows = .ok poses) (name : String) (p : P) :
    poses.get? name = some p ↔ LastRow rows name p := by
  rw [legacyPoses_get rows [] poses h]
  simp [Dict.get?_nil]

/-- What one image that ends without an error does. -/
theorem legacyOne_ok {mk : Res J} {poses : Dict String P} {proc : Im → J → P → Proc} {overwrite : Bool} {st st' : LState J P}
    {fs fs' : Fs (J × P) Im} {s : LSrc Im} (hc : ∀ c, st.camera = some c → mk = .ok c.1) {d : String} (hd : st.orthoDir = some d)
    (hd0 : d ≠ "") (h : legacyOne mk poses proc overwrite st fs s = (fs', .ok st')) :
    ∃ j p, mk = .ok j ∧ poses.get? s.stem = some p ∧ fs' = (fun q => if q = orthoPath d s.stem then some (.done s.im (j, p)) else fs q) ∧
      st' = ⟨some (j, p), some d⟩ ∧ (overwrite = false → fs (orthoPath d s.stem) = none) := by
  unfold legacyOne at h
  cases hp : poses.get? s.stem with
  | none => rw [hp] at h; simp at h
  | some pose =>
  rw [hp] at h
  simp only [hd, if_neg hd0] at h
  cases ho : s.opened with
  | error e => rw [ho] at h; simp at h
  | ok u =>
  rw [ho] at h
  simp only at h
  have hcam : ∀ cam : J × P, (match st.camera with
        | none => do
          let j ← mk
          pure (j, pose)
        | some (j, _) => pure (j, pose) : Res (J × P)) = .ok cam → mk = .ok cam.1 ∧ cam.2 = pose := by
    intro cam hcm
    cases hcc : st.camera with
    | none =>
      rw [hcc] at hcm
      simp only at hcm
      cases hmk : mk with
      | error e => rw [hmk] at hcm; cases hcm
      | ok j => rw [hmk, ok_bind] at hcm; injection hcm with hcm; subst hcm; exact ⟨rfl, rfl⟩
    | some c =>
      rw [hcc] at hcm
      injection hcm with hcm
      subst hcm
      exact ⟨hc c hcc, rfl⟩
  cases hcm : (match st.camera with
        | none => do
          let j ← mk
          pure (j, pose)
        | some (j, _) => pure (j, pose) : Res (J × P)) with
  | error e => rw [hcm] at h; simp at h
  | ok cam =>
  rw [hcm] at h
  simp only at h
  obtain ⟨h1, h2⟩ := hcam cam hcm
  cases hpr : proc s.im cam.1 cam.2 with
  | raised e => rw [hpr] at h; simp at h
  | aborted e =>
    rw [hpr] at h
    simp only at h
    split at h <;> simp at h
  | done =>
    rw [hpr] at h
    simp only at h
    by_cases hex : (fs (orthoPath d s.stem)).isSome ∧ overwrite = false
    · rw [if_pos hex] at h; simp at h
    · rw [if_neg hex] at h
      simp only [Prod.mk.injEq, Except.ok.injEq] at h
      obtain ⟨h3, h4⟩ := h
      have hcp : cam = (cam.1, pose) := by rw [← h2]
      refine ⟨cam.1, pose, h1, rfl, ?_, ?_, fun hov => ?_⟩
      · rw [← h3, ← hcp]
      · rw [← h4, ← hcp]
      · have := fun hs => hex ⟨hs, hov⟩
        simpa using this

theorem legacyLoop_ok {mk : Res J} {poses : Dict String P} {proc : Im → J → P → Proc} {overwrite : Bool} {d : String} (hd0 : d ≠ "")
    (srcs : List (LSrc Im)) : ∀ (st : LState J P) (fs fs' : Fs (J × P) Im), (∀ c, st.camera = some c → mk = .ok c.1) →
      st.orthoDir = some d → (srcs.map LSrc.stem).Nodup → legacyLoop mk poses proc overwrite st fs srcs = (fs', .ok ()) →
      (∀ s ∈ srcs, ∃ j p, mk = .ok j ∧ poses.get? s.stem = some p ∧ fs' (orthoPath d s.stem) = some (.done s.im (j, p)) ∧
        (overwrite = false → fs (orthoPath d s.stem) = none)) ∧
      (∀ q, (∀ s ∈ srcs, q ≠ orthoPath d s.stem) → fs' q = fs q) := by
  induction srcs with
  | nil =>
    intro st fs fs' _ _ _ h
    simp only [legacyLoop, Prod.mk.injEq] at h
    exact ⟨by simp, fun q _ => by rw [h.1]⟩
  | cons s ss ih =>
    intro st fs fs' hc hd hnd h
    rw [List.map_cons, List.nodup_cons] at hnd
    unfold legacyLoop at h
    cases h1 : legacyOne mk poses proc overwrite st fs s with
    | mk fs1 r =>
    cases r with
    | error e => rw [h1] at h; simp at h
    | ok st1 =>
    rw [h1] at h
    simp only at h
    obtain ⟨j, p, hj, hp, hfs, hst, hov⟩ := legacyOne_ok hc hd hd0 h1
    obtain ⟨hA, hB⟩ := ih st1 fs1 fs' (by rw [hst]; rintro c hc'; injection hc' with hc'; rw [← hc']; exact hj) (by rw [hst]) hnd.2 h
    have hne : ∀ t ∈ ss, orthoPath d s.stem ≠ orthoPath d t.stem := by
      intro t ht he
      exact hnd.1 (List.mem_map.2 ⟨t, ht, (C58_paths d _ _ he).symm⟩)
    refine ⟨fun t ht => ?_, fun q hq => ?_⟩
    · rcases List.mem_cons.1 ht with rfl | ht
      · refine ⟨j, p, hj, hp, ?_, hov⟩
        rw [hB _ hne, hfs]
        simp
      · obtain ⟨j', p', h1', h2', h3', h4'⟩ := hA t ht
        refine ⟨j', p', h1', h2', h3', fun ho => ?_⟩
        have := h4' ho
        rw [hfs] at this
        simpa [Ne.symm (hne t ht)] using this
    · rw [hB q fun t ht => hq t (by simp [ht]), hfs]
      simp [hq s (by simp)]

variable {Conf : Type}

/-- C79: when the command ends without an error, and a directory is given, the ortho of every image that an argument matches is
in the directory, made with the camera of the configuration at the pose in the last row with the name of the image, whatever the
other images; existing files were replaced only with `overwrite`; and no other file is changed. -/
theorem C79_orthos (a : LegacyArgs Conf J P Im) (proc : Im → J → P → Proc) (fs fs' : Fs (J × P) Im) (c : Option (String × Conf))
    (d : String) (hd : a.orthoDir = some d) (hd0 : d ≠ "") (hw : a.writeConf = none) (hnd : (a.glob.flatten.map LSrc.stem).Nodup)
    (h : legacy a proc fs = (fs', c, .ok ())) :
    (∀ l ∈ a.glob, l ≠ [] ∧ ∀ s ∈ l, ∃ j p, a.make = .ok j ∧ LastRow a.rows s.stem p ∧
      fs' (orthoPath d s.stem) = some (.done s.im (j, p)) ∧ (a.overwrite = false → fs (orthoPath d s.stem) = none)) ∧
    (∀ q, (∀ l ∈ a.glob, ∀ s ∈ l, q ≠ orthoPath d s.stem) → fs' q = fs q) ∧ c = none := by
  unfold legacy at h
  cases hcf : a.conf with
  | error e => rw [hcf] at h; simp at h
  | ok conf =>
  rw [hcf, hw] at h
  simp only at h
  cases hcc : a.cameraConf with
  | error e => rw [hcc] at h; simp at h
  | ok u =>
  rw [hcc] at h
  simp only at h
  by_cases hg : a.glob.any List.isEmpty = true ∨ a.demExists = false ∨ a.posesExist = false
  · rw [if_pos hg] at h; simp at h
  · rw [if_neg hg] at h
    cases hp : legacyPoses [] a.rows with
    | error e => rw [hp] at h; simp at h
    | ok poses =>
    rw [hp] at h
    simp only [Prod.mk.injEq] at h
    obtain ⟨h1, h2, h3⟩ := h
    obtain ⟨hA, hB⟩ := legacyLoop_ok hd0 a.glob.flatten ⟨none, a.orthoDir⟩ fs fs' (by simp) hd hnd
      (by rw [← h1, ← h3])
    refine ⟨fun l hl => ⟨?_, fun s hs => ?_⟩, fun q hq => hB q ?_, h2.symm⟩
    · rintro rfl
      exact hg (.inl (List.any_eq_true.2 ⟨[], hl, rfl⟩))
    · obtain ⟨j, p, e1, e2, e3, e4⟩ := hA s (List.mem_flatten.2 ⟨l, hl, hs⟩)
      exact ⟨j, p, e1, (C79_pose a.rows poses hp s.stem p).1 e2, e3, e4⟩
    · intro s hs
      obtain ⟨l, hl, hs⟩ := List.mem_flatten.1 hs
      exact hq l hl s hs

/-- C79: with `write_conf` the command does nothing but write the configuration that was read, whatever the other arguments. -/
theorem C79_write_conf (a : LegacyArgs Conf J P Im) (proc : Im → J → P → Proc) (fs : Fs (J × P) Im) (conf : Conf) (path : String)
    (hc : a.conf = .ok conf) (hw : a.writeConf = some path) : legacy a proc fs = (fs, some (path, conf), .ok ()) := by
  unfold legacy
  rw [hc, hw]

theorem legacyLoop_append {mk : Res J} {poses : Dict String P} {proc : Im → J → P → Proc} {overwrite : Bool} (s : LSrc Im)
    (hs : poses.get? s.stem = none) (post : List (LSrc Im)) (pre : List (LSrc Im)) : ∀ (st : LState J P) (fs fs' : Fs (J × P) Im),
    legacyLoop mk poses proc overwrite st fs pre = (fs', .ok ()) →
    legacyLoop mk poses proc overwrite st fs (pre ++ s :: post) = (fs', .error .runtimeError) := by
  induction pre with
  | nil =>
    intro st fs fs' h
    simp only [legacyLoop, Prod.mk.injEq] at h
    simp only [List.nil_append, legacyLoop, legacyOne, hs, h.1]
  | cons r pre ih =>
    intro st fs fs' h
    rw [List.cons_append]
    unfold legacyLoop at h ⊢
    cases h1 : legacyOne mk poses proc overwrite st fs r with
    | mk fs1 x =>
    rw [h1] at h
    cases x with
    | error e => simp at h
    | ok st1 => exact ih st1 fs1 fs' h

/-- C79: at the first image without a row the command stops with an error; the images before it are as without the others. -/
theorem C79_missing_pose (a : LegacyArgs Conf J P Im) (proc : Im → J → P → Proc) (fs fs' : Fs (J × P) Im) (pre post : List (LSrc Im))
    (s : LSrc Im) (conf : Conf) (hcf : a.conf = .ok conf) (hw : a.writeConf = none) (hcc : a.cameraConf = .ok ())
    (hg : ∀ l ∈ a.glob, l ≠ []) (hde : a.demExists = true) (hpe : a.posesExist = true) (poses : Dict String P)
    (hp : legacyPoses [] a.rows = .ok poses) (hs : ∀ p, ¬ LastRow a.rows s.stem p) (hsplit : a.glob.flatten = pre ++ s :: post)
    (hpre : legacyLoop a.make poses proc a.overwrite ⟨none, a.orthoDir⟩ fs pre = (fs', .ok ())) :
    legacy a proc fs = (fs', none, .error .runtimeError) := by
  have hnone : poses.get? s.stem = none := by
    cases hx : poses.get? s.stem with
    | none => rfl
    | some p => exact absurd ((C79_pose a.rows poses hp s.stem p).1 hx) (hs p)
  have hg' : ¬ (a.glob.any List.isEmpty = true ∨ a.demExists = false ∨ a.posesExist = false) := by
    rintro (h | h | h)
    · obtain ⟨l, hl, he⟩ := List.any_eq_true.1 h
      exact hg l hl (by simpa using he)
    · rw [hde] at h; cases h
    · rw [hpe] at h; cases h
  unfold legacy
  rw [hcf, hw, hcc]
  simp only [if_neg hg', hp, hsplit, legacyLoop_append s hnone post pre _ _ _ hpre]

/-- C79: arguments that match nothing, missing files and bad rows end the command before any ortho is written. -/
theorem C79_checks (a : LegacyArgs Conf J P Im) (proc : Im → J → P → Proc) (fs : Fs (J × P) Im) (hw : a.writeConf = none)
    (h : (∃ e, a.conf = .error e) ∨ (∃ e, a.cameraConf = .error e) ∨ [] ∈ a.glob ∨ a.demExists = false ∨ a.posesExist = false ∨
      ∃ e, legacyPoses [] a.rows = .error e) :
    ∃ e, legacy a proc fs = (fs, none, .error e) := by
  unfold legacy
  cases hcf : a.conf with
  | error e => exact ⟨e, rfl⟩
  | ok conf =>
  rw [hw]
  simp only
  cases hcc : a.cameraConf with
  | error e => exact ⟨e, rfl⟩
  | ok u =>
  simp only
  by_cases hg : a.glob.any List.isEmpty = true ∨ a.demExists = false ∨ a.posesExist = false
  · rw [if_pos hg]; exact ⟨_, rfl⟩
  · rw [if_neg hg]
    rcases h with ⟨e, h⟩ | ⟨e, h⟩ | h | h | h | ⟨e, h⟩
    · rw [hcf] at h; cases h
    · rw [hcc] at h; cases h
    · exact absurd (.inl (List.any_eq_true.2 ⟨[], h, rfl⟩)) hg
    · exact absurd (.inr (.inl h)) hg
    · exact absurd (.inr (.inr h)) hg
    · rw [h]; exact ⟨e, rfl⟩

/-- C79: without a directory the command does what it does when it is given the directory of the first image. -/
theorem C79_default_dir (a : LegacyArgs Conf J P Im) (proc : Im → J → P → Proc) (fs : Fs (J × P) Im) (hd : a.orthoDir = none) (s : LSrc Im)
    (ss : List (LSrc Im)) (hs : a.glob.flatten = s :: ss) (hp : s.parent ≠ "") :
    legacy a proc fs = legacy { a with orthoDir := some s.parent } proc fs := by
  have key : ∀ poses, legacyLoop a.make poses proc a.overwrite ⟨none, none⟩ fs (s :: ss) =
      legacyLoop a.make poses proc a.overwrite ⟨none, some s.parent⟩ fs (s :: ss) := by
    intro poses
    have : legacyOne a.make poses proc a.overwrite ⟨none, none⟩ fs s =
        legacyOne a.make poses proc a.overwrite ⟨none, some s.parent⟩ fs s := by
      simp only [legacyOne, if_neg hp]
    simp only [legacyLoop, this]
  unfold legacy
  simp only [hd, hs, key]

theorem legacyOne_only {mk : Res J} {poses : Dict String P} {proc : Im → J → P → Proc} {overwrite : Bool} {st : LState J P}
    {fs : Fs (J × P) Im} {s : LSrc Im} {d : String} (hd : st.orthoDir = some d) (hd0 : d ≠ "") :
    (∀ q, (legacyOne mk poses proc overwrite st fs s).1 q = fs q ∨
      (q = orthoPath d s.stem ∧ (overwrite = false → fs q = none))) ∧
      ∀ st', (legacyOne mk poses proc overwrite st fs s).2 = .ok st' → st'.orthoDir = some d := by
  unfold legacyOne
  cases poses.get? s.stem with
  | none => exact ⟨fun _ => .inl rfl, fun _ h => by cases h⟩
  | some pose =>
  simp only [hd, if_neg hd0]
  cases s.opened with
  | error e => exact ⟨fun _ => .inl rfl, fun _ h => by cases h⟩
  | ok u =>
  simp only
  generalize (match st.camera with
        | none => do
          let j ← mk
          pure (j, pose)
        | some (j, _) => pure (j, pose) : Res (J × P)) = c
  cases c with
  | error e => exact ⟨fun _ => .inl rfl, fun _ h => by cases h⟩
  | ok cam =>
  simp only
  have put : ∀ (x : Out (J × P) Im) (hno : ¬ ((fs (orthoPath d s.stem)).isSome = true ∧ overwrite = false)) (q : String),
      (if q = orthoPath d s.stem then some x else fs q) = fs q ∨ (q = orthoPath d s.stem ∧ (overwrite = false → fs q = none)) := by
    intro x hno q
    by_cases hq : q = orthoPath d s.stem
    · refine .inr ⟨hq, fun ho => ?_⟩
      subst hq
      by_contra hc
      exact hno ⟨Option.isSome_iff_ne_none.2 hc, ho⟩
    · exact .inl (if_neg hq)
  cases proc s.im cam.1 cam.2 with
  | raised e => exact ⟨fun _ => .inl rfl, fun _ h => by cases h⟩
  | done =>
    simp only
    split_ifs with hno
    · exact ⟨fun _ => .inl rfl, fun _ h => by cases h⟩
    · exact ⟨put _ hno, fun _ h => by cases h; rfl⟩
  | aborted e =>
    simp only
    split_ifs with hno
    · exact ⟨fun _ => .inl rfl, fun _ h => by cases h⟩
    · exact ⟨put _ hno, fun _ h => by cases h⟩

theorem legacyLoop_only {mk : Res J} {poses : Dict String P} {proc : Im → J → P → Proc} {overwrite : Bool} {d : String} (hd0 : d ≠ "")
    (srcs : List (LSrc Im)) : ∀ (st : LState J P) (fs : Fs (J × P) Im), st.orthoDir = some d →
      ∀ q, (legacyLoop mk poses proc overwrite st fs srcs).1 q = fs q ∨
        ((∃ s ∈ srcs, q = orthoPath d s.stem) ∧ (overwrite = false → fs q = none)) := by
  induction srcs with
  | nil => intro st fs _ q; exact .inl rfl
  | cons s ss ih =>
    intro st fs hd q
    obtain ⟨h1, h2⟩ := legacyOne_only (mk := mk) (poses := poses) (proc := proc) (overwrite := overwrite) (st := st) (fs := fs) (s := s)
      hd hd0
    unfold legacyLoop
    cases h : legacyOne mk poses proc overwrite st fs s with
    | mk fs1 r =>
    rw [h] at h1 h2
    have one : fs1 q = fs q ∨ ((∃ t ∈ s :: ss, q = orthoPath d t.stem) ∧ (overwrite = false → fs q = none)) := by
      rcases h1 q with h | ⟨h, h'⟩
      · exact .inl h
      · exact .inr ⟨⟨s, by simp, h⟩, h'⟩
    cases r with
    | error e => exact one
    | ok st1 =>
      simp only
      rcases ih st1 fs1 (h2 st1 rfl) q with g | ⟨⟨t, ht, g⟩, g'⟩
      · rw [g]; exact one
      · rcases one with o | o
        · exact .inr ⟨⟨t, by simp [ht], g⟩, fun ho => o ▸ g' ho⟩
        · exact .inr o

/-- C79: whether it ends with an error or not, the command changes no file but orthos of images that an argument matches, and without
`overwrite` no file that existed. -/
theorem C79_only_orthos (a : LegacyArgs Conf J P Im) (proc : Im → J → P → Proc) (fs : Fs (J × P) Im) (d : String)
    (hd : a.orthoDir = some d) (hd0 : d ≠ "") (q : String) :
    (legacy a proc fs).1 q = fs q ∨ ((∃ l ∈ a.glob, ∃ s ∈ l, q = orthoPath d s.stem) ∧ (a.overwrite = false → fs q = none)) := by
  unfold legacy
  cases a.conf with
  | error e => exact .inl rfl
  | ok conf =>
  cases a.writeConf with
  | some p => exact .inl rfl
  | none =>
  cases a.cameraConf with
  | error e => exact .inl rfl
  | ok u =>
  simp only
  split_ifs with hg
  · exact .inl rfl
  · cases legacyPoses [] a.rows with
    | error e => exact .inl rfl
    | ok poses =>
      simp only
      rcases legacyLoop_only (mk := a.make) (poses := poses) (proc := proc) (overwrite := a.overwrite) hd0 a.glob.flatten
        ⟨none, a.orthoDir⟩ fs hd q with h | ⟨⟨s, hs, h⟩, h'⟩
      · exact .inl h
      · obtain ⟨l, hl, hs⟩ := List.mem_flatten.1 hs
        exact .inr ⟨⟨l, hl, s, hs, h⟩, h'⟩

end

/-! ### Examples -/

/-- Two images, the second with two rows. -/
def exLegacy : LegacyArgs ℕ ℕ ℕ ℕ :=
  ⟨.ok 5, .ok (), [[⟨1, "s", "a", .ok ()⟩], [⟨2, "t", "b", .ok ()⟩]], true, true, [("b", .ok 7), ("a", .ok 8), ("b", .ok 9)], .ok 3, false,
    some "o", none⟩

example : (legacy exLegacy (fun _ _ _ => .done) (fun _ => none)).2 = (none, .ok ()) ∧
    (legacy exLegacy (fun _ _ _ => .done) (fun _ => none)).1 (orthoPath "o" "b") = some (.done 2 (3, 9)) ∧
    (legacy exLegacy (fun _ _ _ => .done) (fun _ => none)).1 (orthoPath "o" "a") = some (.done 1 (3, 8)) := by
  have h : legacyPoses [] exLegacy.rows = .ok [("b", 9), ("a", 8)] := by decide +kernel
  refine ⟨by decide +kernel, by decide +kernel, by decide +kernel⟩
example : (exLegacy.glob.flatten.map LSrc.stem).Nodup := by decide +kernel
example : LastRow exLegacy.rows "b" 9 := ⟨[("b", .ok 7), ("a", .ok 8)], [], rfl, by simp⟩
example : (processArgs [("crs", .val 1), ("interp", .str "cubic_spline"), ("nodata", .val 0), ("overwrite", .val 1)] :
    Dict String (CVal ℕ)) = [("interp", .str "cubic"), ("overwrite", .val 1)] := by decide +kernel
/-- The second of three images has no row. -/
example : (legacy { exLegacy with glob := [[⟨1, "s", "a", .ok ()⟩, ⟨2, "t", "x", .ok ()⟩, ⟨3, "t", "b", .ok ()⟩]] } (fun _ _ _ => .done)
    (fun _ => none)).2 = (none, .error .runtimeError) := by decide +kernel

/-- Without a directory the ortho of the second image is in the directory of the first (C58_legacy_dir_fails). -/
example : (legacy { exLegacy with orthoDir := none } (fun _ _ _ => .done) (fun _ => none)).1 (orthoPath "t" "b") = none ∧
    (legacy { exLegacy with orthoDir := none } (fun _ _ _ => .done) (fun _ => none)).1 (orthoPath "s" "b") = some (.done 2 (3, 9)) :=
  ⟨by decide +kernel, by decide +kernel⟩
/-- The second image fails when half of its ortho is written: the file is broken, and the others are as before. -/
example : (legacy exLegacy (fun im _ _ => if im = 2 then .aborted .valueError else .done) (fun _ => none)).1 (orthoPath "o" "b") =
    some .broken := by decide +kernel

end Verif.Cli
