import Verif.Factory.Frame

/-!
# C95: the name of a file

`common.get_filename` gives the name that parameters are looked up with (`FrameCameras.get`, `RpcCameras.get`),
that the format of a parameter file is found from, and that messages show.  The same file can be passed as a
path or URI, an `OpenFile`, a dataset or a file object.

Text is a list of characters.  Paths are POSIX paths.
-/

set_option autoImplicit false

namespace Verif.Files.Names

open Verif.Factory

abbrev Text := List Char

/-! ## Model -/

/-- The parts of a text between slashes. -/
def splitSlash : Text → List Text
  | [] => [[]]
  | c :: s => if c = '/' then [] :: splitSlash s else
    match splitSlash s with
    | [] => [[c]]
    | w :: ws => (c :: w) :: ws

/-- `Path(s).name`: the last part that is not empty and not a dot. -/
def pathName (s : Text) : Text :=
  (((splitSlash s).filter fun w => w ≠ [] ∧ w ≠ ['.']).getLast?).getD []

/-- The position of the last dot of a text, from its end: the number of characters after it. -/
def afterDot (s : Text) : Option ℕ := s.reverse.findIdx? (· = '.')

/-- `Path(s).stem` (python up to 3.13): the name without its suffix; a name that begins or ends with its only dot
has no suffix. -/
def pathStem (s : Text) : Text :=
  let n := pathName s
  match afterDot n with
  | none => n
  | some k => if 0 < k ∧ k + 1 < n.length then n.take (n.length - (k + 1)) else n

/-- The `name` attribute of a file object: that of a file opened from a descriptor is a number. -/
inductive NameAttr
  | none
  | text (s : Text)
  | number

/-- What can be passed as a file: a path or URI, an `OpenFile` (`path`), a dataset (`name`), or a file object
(`name`); all but the first with their `filename` attribute, if it has been set. -/
inductive File
  | path (s : Text)
  | ofile (path : Text) (filename : Option Text)
  | dataset (name : Text) (filename : Option Text)
  | object (name : NameAttr) (filename : Option Text)
  | other

/-- `Path(getattr(file, 'name', '<file object>')).name`, orthority/common.py:234.  `Path` of a number is a
`TypeError`. -/
def objectName : NameAttr → Res Text
  | .none => .ok (pathName "<file object>".toList)
  | .text s => .ok (pathName s)
  | .number => .error .typeError

/-- `getattr(file, 'filename', default)`: the default is evaluated first. -/
def attrOr (a : Option Text) (default : Res Text) : Res Text :=
  match default with
  | .error e => .error e
  | .ok d => .ok (a.getD d)

/-- orthority/common.py:223-237 `get_filename`. -/
def getFilename : File → Res Text
  | .dataset name a => attrOr a (.ok (pathName name))
  | .ofile p a => attrOr a (.ok (pathName p))
  | .object name a => attrOr a (objectName name)
  | .path s => .ok (pathName s)
  | .other => .error .typeError

/-- fsspec and GDAL: the path of the `OpenFile` for a URI, whether a file is opened by GDAL, and the names of the
datasets and file objects that they make. -/
structure Env where
  fsPath : Text → Text
  byGdal : Text → Bool
  memName : Text → Text
  objName : Text → NameAttr

/-- The path of the `OpenFile` of a file. -/
def Env.ofPath (env : Env) : File → Option Text
  | .path s => some (env.fsPath s)
  | .ofile p _ => some p
  | _ => none

/-- orthority/common.py:266-336 `OpenRaster.__init__`: the dataset.  Not modelled: errors when the file is opened,
and the tests of the mode. -/
def openRaster (env : Env) (f : File) : Res File :=
  match f with
  | .dataset name a => .ok (.dataset name a)
  | _ => match env.ofPath f with
    | none => .error .typeError
    | some p => match getFilename f with
      | .error e => .error e
      | .ok n => .ok (.dataset (if env.byGdal p then p else env.memName p) (some n))

/-- orthority/common.py:367-404 `Open.__init__`: the file object.  Not modelled: errors when the file is opened,
and the tests of the mode. -/
def openText (env : Env) (f : File) : Res File :=
  match f with
  | .object name a => .ok (.object name a)
  | _ => match env.ofPath f with
    | none => .error .typeError
    | some p => match getFilename f with
      | .error e => .error e
      | .ok n => .ok (.object (env.objName p) (some n))

/-- `get_filename`, then orthority/factory.py:205-234 `FrameCameras.get` (`Verif.Factory.FrameEnv.getCam`). -/
def getByFile {I J P X : Type} (env : FrameEnv I J P X) (s : FrameState J P) (f : File) :
    Res (Option (Cam J P)) :=
  match getFilename f with
  | .error e => .error e
  | .ok n => env.getCam s (String.ofList n)

/-! ## Specification -/

/-- `n` is the last part of the path or URI `s`. -/
def EndsIn (s n : Text) : Prop :=
  '/' ∉ n ∧ n ≠ [] ∧ n ≠ ['.'] ∧ (s = n ∨ ∃ d, s = d ++ '/' :: n)

/-- The ways to pass the file with the path or URI `u`: as it is; as the `OpenFile` that fsspec makes for it; as a
dataset that the user has opened with rasterio, or a file object that the user has opened with `open`; and as what
`OpenRaster` and `Open` give for any of these. -/
inductive Handle (env : Env) (u : Text) : File → Prop
  | path : Handle env u (.path u)
  | ofile : Handle env u (.ofile (env.fsPath u) none)
  | dataset : Handle env u (.dataset u none)
  | object : Handle env u (.object (.text u) none)
  | raster (f d : File) : Handle env u f → openRaster env f = .ok d → Handle env u d
  | text (f o : File) : Handle env u f → openText env f = .ok o → Handle env u o

/-! ## Paths -/

theorem splitSlash_append (d s : Text) : splitSlash (d ++ '/' :: s) = splitSlash d ++ splitSlash s := by
  induction d with
  | nil => simp [splitSlash]
  | cons c d ih =>
    rw [List.cons_append, splitSlash, splitSlash, ih]
    by_cases hc : c = '/'
    · simp [hc]
    · rw [if_neg hc, if_neg hc]
      cases hd : splitSlash d with
      | nil =>
        exfalso
        cases d with
        | nil => simp [splitSlash] at hd
        | cons x d =>
          unfold splitSlash at hd
          split_ifs at hd
          split at hd <;> simp at hd
      | cons w ws => simp

theorem splitSlash_of_not_mem {n : Text} (h : '/' ∉ n) : splitSlash n = [n] := by
  induction n with
  | nil => rfl
  | cons c n ih =>
    rw [List.mem_cons, not_or] at h
    unfold splitSlash
    rw [if_neg (Ne.symm h.1), ih h.2]

theorem pathName_ends {s n : Text} (h : EndsIn s n) : pathName s = n := by
  obtain ⟨h1, h2, h3, h4⟩ := h
  unfold pathName
  have hf : ([n] : List Text).filter (fun w => w ≠ [] ∧ w ≠ ['.']) = [n] := by simp [h2, h3]
  rcases h4 with rfl | ⟨d, rfl⟩
  · rw [splitSlash_of_not_mem h1, hf]
    rfl
  · rw [splitSlash_append, splitSlash_of_not_mem h1, List.filter_append, hf]
    simp

theorem pathStem_ends {s n a b : Text} (h : EndsIn s n) (hn : n = a ++ '.' :: b) (ha : a ≠ []) (hb : b ≠ [])
    (hd : '.' ∉ b) : pathStem s = a := by
  unfold pathStem
  rw [pathName_ends h]
  have hk : afterDot n = some b.length := by
    unfold afterDot
    rw [hn]
    simp only [List.reverse_append, List.reverse_cons, List.append_assoc]
    rw [List.findIdx?_append]
    have hnone : List.findIdx? (fun x => decide (x = '.')) b.reverse = none := by
      rw [List.findIdx?_eq_none_iff]
      intro x hx
      simp only [List.mem_reverse] at hx
      simp only [decide_eq_false_iff_not]
      rintro rfl
      exact hd hx
    rw [hnone]
    simp [List.findIdx?_cons]
  simp only [hk]
  have hbl : 0 < b.length := List.length_pos_iff.2 hb
  have hal : 0 < a.length := List.length_pos_iff.2 ha
  have hl : n.length = a.length + (b.length + 1) := by rw [hn]; simp
  rw [if_pos ⟨hbl, by omega⟩, hl, Nat.add_sub_cancel, hn, List.take_left']
  rfl

/-! ## Theorems -/

/-- C95 (the part that holds): when fsspec keeps the last part of the path or URI of a file, and file objects that
`Open` makes have no number for a name, all ways to pass the file give it the same name, which is the last part of
its path. -/
theorem C95_name_partial (env : Env) (u n : Text) (hu : EndsIn u n) (hp : EndsIn (env.fsPath u) n)
    (ho : ∀ p, env.objName p ≠ .number) (f : File) (hf : Handle env u f) : getFilename f = .ok n := by
  induction hf with
  | path => simp [getFilename, pathName_ends hu]
  | ofile => simp [getFilename, attrOr, pathName_ends hp]
  | dataset => simp [getFilename, attrOr, pathName_ends hu]
  | object => simp [getFilename, attrOr, objectName, pathName_ends hu]
  | raster f d hf hd ih =>
    cases f with
    | dataset name a => cases hd; exact ih
    | path s => simp only [openRaster, Env.ofPath, ih] at hd; cases hd; simp [getFilename, attrOr]
    | ofile p a => simp only [openRaster, Env.ofPath, ih] at hd; cases hd; simp [getFilename, attrOr]
    | object name a => simp [openRaster, Env.ofPath] at hd
    | other => simp [openRaster, Env.ofPath] at hd
  | text f o hf hd ih =>
    have key : ∀ p, getFilename (.object (env.objName p) (some n)) = .ok n := by
      intro p
      have := ho p
      cases h : env.objName p with
      | number => exact absurd h this
      | none => simp [getFilename, attrOr, objectName]
      | text s => simp [getFilename, attrOr, objectName]
    cases f with
    | object name a => cases hd; exact ih
    | path s => simp only [openText, Env.ofPath, ih] at hd; cases hd; exact key _
    | ofile p a => simp only [openText, Env.ofPath, ih] at hd; cases hd; exact key _
    | dataset name a => simp [openText, Env.ofPath] at hd
    | other => simp [openText, Env.ofPath] at hd

/-- C95 (the part that holds): a dataset that `OpenRaster` made, and a file object that `Open` made, are known by
the name of the file they were made from, whatever names GDAL and fsspec gave them. -/
theorem C95_opened_partial (env : Env) (f d : File) (hopen : openRaster env f = .ok d ∨ openText env f = .ok d)
    (ho : ∀ p, env.objName p ≠ .number) : getFilename d = getFilename f := by
  rcases hopen with h | h
  · cases f with
    | dataset name a => cases h; rfl
    | object name a => simp [openRaster, Env.ofPath] at h
    | other => simp [openRaster, Env.ofPath] at h
    | path s => simp only [openRaster, Env.ofPath, getFilename] at h; cases h; simp [getFilename, attrOr]
    | ofile p a =>
      simp only [openRaster, Env.ofPath, getFilename, attrOr] at h
      cases h
      simp [getFilename, attrOr]
  · have key : ∀ p n, getFilename (.object (env.objName p) (some n)) = .ok n := by
      intro p n
      have := ho p
      cases h : env.objName p with
      | number => exact absurd h this
      | none => simp [getFilename, attrOr, objectName]
      | text s => simp [getFilename, attrOr, objectName]
    cases f with
    | object name a => cases h; rfl
    | dataset name a => simp [openText, Env.ofPath] at h
    | other => simp [openText, Env.ofPath] at h
    | path s => simp only [openText, Env.ofPath, getFilename] at h; cases h; exact key _ _
    | ofile p a =>
      simp only [openText, Env.ofPath, getFilename, attrOr] at h
      cases h
      exact key _ _

/-- C95 (the part that holds): whichever way an image is passed to `FrameCameras.get`, after any history of calls,
the parameters that the exterior parameters have under its name, or under its name without extension, are those of
the camera that is returned. -/
theorem C95_camera_partial {I J P X : Type} (fenv : FrameEnv I J P X)
    (hname : ∀ s, fenv.name s = String.ofList (pathName s.toList))
    (hstem : ∀ s, fenv.stem s = String.ofList (pathStem s.toList))
    (env : Env) (u n a b : Text) (hu : EndsIn u n) (hp : EndsIn (env.fsPath u) n)
    (ho : ∀ p, env.objName p ≠ .number) (f : File) (hf : Handle env u f) (hist : List String)
    (hn : n = a ++ '.' :: b) (ha : a ≠ []) (hb : b ≠ []) (hd : '.' ∉ b)
    (id : String) (x o : X) (i : I) (c : Cam J P) (p : P)
    (hext : Dict.get? fenv.extParam (String.ofList n) = some (some ⟨some id, some x, some o⟩) ∨
      (Dict.get? fenv.extParam (String.ofList n) = none ∧
        Dict.get? fenv.extParam (String.ofList a) = some (some ⟨some id, some x, some o⟩)))
    (hid : id ≠ "") (hint : Dict.get? fenv.intParam id = some i) (hc : fenv.create i = .ok c)
    (hpose : fenv.extrinsic x o = .ok p) :
    getByFile fenv (fenv.run .init hist) f = .ok (some ⟨c.int, p⟩) := by
  unfold getByFile
  rw [C95_name_partial env u n hu hp ho f hf]
  have hself : EndsIn n n := ⟨hu.1, hu.2.1, hu.2.2.1, Or.inl rfl⟩
  refine C26_get_ok fenv hist _ ⟨some id, some x, some o⟩ i x o c p ?_ ?_ rfl rfl hc hpose
  · rw [hname, hstem, String.toList_ofList, pathName_ends hself, pathStem_ends hself hn ha hb hd]
    exact hext
  · exact Or.inl ⟨id, rfl, hid, hint⟩

/-- C95: what is refused: `OpenRaster` refuses file objects, `Open` refuses datasets, both refuse objects of other types, and these have no
name; all with a `TypeError`. -/
theorem C95_refused (env : Env) (f : File) (e : PyErr) :
    (openRaster env f = .error e ↔ e = .typeError ∧ (f = .other ∨ ∃ n a, f = .object n a)) ∧
    (openText env f = .error e ↔ e = .typeError ∧ (f = .other ∨ ∃ n a, f = .dataset n a)) ∧
    (getFilename f = .error e ↔ e = .typeError ∧ (f = .other ∨ ∃ a, f = .object .number a)) := by
  cases f with
  | path s => simp [openRaster, openText, Env.ofPath, getFilename]
  | ofile p a => simp [openRaster, openText, Env.ofPath, getFilename, attrOr]
  | dataset n a => simp [openRaster, openText, Env.ofPath, getFilename, attrOr, eq_comm]
  | object n a => cases n <;> simp [openRaster, openText, Env.ofPath, getFilename, attrOr, objectName, eq_comm]
  | other => simp [openRaster, openText, Env.ofPath, getFilename, eq_comm]

/-- C95 is false of URIs with a chain of file systems, as in `zip://a.tif::b.zip`: the string is known by the name
of the archive, the `OpenFile` by the name of the file. -/
theorem C95_chain_fails (env : Env) (u n m : Text) (hu : EndsIn u m) (hp : EndsIn (env.fsPath u) n) (hne : n ≠ m) :
    ∃ f g, Handle env u f ∧ Handle env u g ∧ getFilename f = .ok m ∧ getFilename g = .ok n ∧
      getFilename f ≠ getFilename g := by
  refine ⟨_, _, .path, .ofile, ?_, ?_, ?_⟩
  · simp [getFilename, pathName_ends hu]
  · simp [getFilename, attrOr, pathName_ends hp]
  · simp [getFilename, attrOr, pathName_ends hu, pathName_ends hp, Ne.symm hne]

/-- C95 is false of file objects that were opened from a descriptor: they have no name, even when `Open` has stored
one with them. -/
theorem C95_number_fails (a : Option Text) : getFilename (.object .number a) = .error .typeError := rfl

/-- C95 is false of file objects without a name: all of them are known by the same name. -/
theorem C95_unnamed_fails : getFilename (.object .none none) = .ok "<file object>".toList := by
  unfold getFilename attrOr objectName
  rw [pathName_ends (n := "<file object>".toList) ⟨by decide, by decide, by decide, Or.inl rfl⟩]
  rfl

/-! ## A file in a directory, and one in an archive -/

/-- fsspec for `file:///d/a.tif`, and for the chain `zip://a.tif::b.zip`. -/
def demoEnv : Env where
  fsPath := fun u => if u = "file:///d/a.tif".toList then "/d/a.tif".toList else "a.tif".toList
  byGdal := fun _ => true
  memName := fun _ => []
  objName := fun p => .text p

theorem demo_ends : EndsIn "file:///d/a.tif".toList "a.tif".toList :=
  ⟨by decide, by decide, by decide, Or.inr ⟨"file:///d".toList, by decide⟩⟩

theorem demo_path : EndsIn (demoEnv.fsPath "file:///d/a.tif".toList) "a.tif".toList :=
  ⟨by decide, by decide, by decide, Or.inr ⟨"/d".toList, by decide⟩⟩

theorem demo_object (p : Text) : demoEnv.objName p ≠ .number := fun h => nomatch h

theorem openRaster_ofile (env : Env) (p : Text) : openRaster env (.ofile p none) =
    .ok (.dataset (if env.byGdal p then p else env.memName p) (some (pathName p))) := rfl

example : ∃ d, openRaster demoEnv (.ofile (demoEnv.fsPath "file:///d/a.tif".toList) none) = .ok d ∧
    getFilename d = .ok "a.tif".toList :=
  ⟨_, openRaster_ofile _ _, C95_name_partial demoEnv "file:///d/a.tif".toList _ demo_ends demo_path demo_object _
    (.raster _ _ .ofile (openRaster_ofile _ _))⟩

example : ∃ f g, Handle demoEnv "zip://a.tif::d/b.zip".toList f ∧ Handle demoEnv "zip://a.tif::d/b.zip".toList g ∧
    getFilename f = .ok "b.zip".toList ∧ getFilename g = .ok "a.tif".toList ∧ getFilename f ≠ getFilename g :=
  C95_chain_fails demoEnv "zip://a.tif::d/b.zip".toList "a.tif".toList "b.zip".toList
    ⟨by decide, by decide, by decide, Or.inr ⟨"zip://a.tif::d".toList, by decide⟩⟩
    ⟨by decide, by decide, by decide, Or.inl (by decide)⟩ (by decide)

/-- A factory with parameters under the name without extension. -/
def demoFactory : FrameEnv ℕ ℕ ℕ ℕ where
  name := fun s => String.ofList (pathName s.toList)
  stem := fun s => String.ofList (pathStem s.toList)
  create := fun i => .ok ⟨i, 0⟩
  extrinsic := fun x o => .ok (x + o)
  intParam := [("cam", 7)]
  extParam := [("a", some ⟨some "cam", some 1, some 2⟩)]

example : getByFile demoFactory (demoFactory.run .init ["b.tif"])
    (.ofile (demoEnv.fsPath "file:///d/a.tif".toList) none) = .ok (some ⟨7, 3⟩) :=
  C95_camera_partial demoFactory (fun _ => rfl) (fun _ => rfl) demoEnv "file:///d/a.tif".toList "a.tif".toList
    "a".toList "tif".toList demo_ends demo_path demo_object _ .ofile _ (by decide) (by decide)
    (by decide) (by decide) "cam" 1 2 7 ⟨7, 0⟩ 3
    (Or.inr ⟨by simp [demoFactory, Dict.get?], by simp [demoFactory, Dict.get?]⟩) (by decide)
    (by simp [demoFactory, Dict.get?]) rfl rfl

end Verif.Files.Names
