import Verif.Exif.Utm

/-!
# C117: image tags that cannot be read
-/

set_option autoImplicit false
set_option linter.unusedSectionVars false

namespace Verif.Exif

section
variable {K : Type} [Field K] [LinearOrder K] [IsStrictOrderedRing K] [FloorRing K]

/-! ## Model -/

/-- An image file as `Exif.__init__` finds it, orthority/exif.py:111-127: `xmp` is the text of the `xml:XMP` tag, which is not yet parsed. -/
structure RawFile where
  filename : String
  imSize : ℕ × ℕ
  tags : Tags
  exifTags : Tags
  xmp : Option (List Char)

/-- orthority/exif.py:124-127: the XMP document.  `parseXml` is `ET.fromstring`, `none` is its `ParseError` (here a ValueError: only the fact that it is neither a
FileNotFoundError nor a ParamError matters).  `strip` removes the characters of `xml:XMP=` from the ends. -/
def xmpDoc (parseXml : List Char → Option Xml) : Option (List Char) → Res (Option Xml)
  | none => .ok none
  | some s => match parseXml (strip ['x', 'm', 'l', ':', 'X', 'M', 'P', '='] s) with
    | none => .error .valueError
    | some x => .ok (some x)

/-- orthority/exif.py:295-299 `_get_orientation`. -/
def orientation (ps : Parse K) (d : Tags) : Res (Option ℤ) :=
  match d.get? "EXIF_Orientation" with
  | none => .ok none
  | some s => (orValueError (ps.int10 s)).map some

/-- `Exif(file)`, orthority/exif.py:111-136, for a file that can be opened.  The orientation is read before positions; which of two bad tags raises cannot be seen by
callers of the reader. -/
def exifFile (ps : Parse K) (lower str : List Char → String) (parseXml : List Char → Option Xml) (r : RawFile) : Res (ExifObj K) := do
  let x ← xmpDoc parseXml r.xmp
  let f : ImFile := ⟨r.filename, r.imSize, r.tags, r.exifTags, x⟩
  let _ ← orientation ps f.exifDict
  exifInit ps lower str f

/-- orthority/param_io.py:1320-1328: the exceptions of `Exif(file)`.  `FileNotFoundError` is raised again, others become a RuntimeError. -/
def wrapped {α : Type} : Res α → Res α
  | .ok a => .ok a
  | .error .fileNotFoundError => .error .fileNotFoundError
  | .error _ => .error .runtimeError

/-- `dict.values()` of the objects by file name, orthority/param_io.py:1330: a file name that came before keeps its place. -/
def addObj (es : List (ExifObj K)) (e : ExifObj K) : List (ExifObj K) :=
  if es.any (fun x => x.filename = e.filename) then es.map fun x => if x.filename = e.filename then e else x else es ++ [e]

/-- orthority/param_io.py:1303-1332 `_read_exif`: results are taken in the order of the files (see C23 for the threads).  A file that cannot be opened is an error. -/
def readExif (ps : Parse K) (lower str : List Char → String) (parseXml : List Char → Option Xml) (files : List (Res RawFile)) : Res (List (ExifObj K)) :=
  files.foldlM (fun es f => do
    let e ← wrapped (f >>= exifFile ps lower str parseXml)
    pure (addObj es e)) []

/-- orthority/param_io.py:1287-1301 `ExifReader.__init__` for CRS arguments that are valid; `crs` tells if a CRS is given. -/
def exifReader (ps : Parse K) (lower str : List Char → String) (parseXml : List Char → Option Xml) (crs : Bool) (files : List (Res RawFile)) : Res (List (ExifObj K)) := do
  let es ← readExif ps lower str parseXml files
  if crs = false ∧ 0 < es.length then do
    let _ ← findUtm es
    pure es
  else pure es

/-! ## Specification -/

/-- Tags that are read for every image. -/
def alwaysRead : List String := ["EXIF_PixelXDimension", "EXIF_PixelYDimension", "EXIF_FocalLengthIn35mmFilm", "EXIF_FocalLength"]

/-- The text of a tag is numbers, each of which python's `float` takes, as GDAL writes them: `(1.5)` or `(1.5) (2.5)`. -/
def Readable (ps : Parse K) (s : List Char) : Prop := ∀ v ∈ splitCh ')' s, v ≠ [] → ∃ x, ps.flt (strip [' ', '('] v) = some x

/-! ## Theorems -/

theorem mapRes_ok_mem {α β : Type} {f : α → Res β} {l : List α} {r : List β} (h : mapRes f l = .ok r) : ∀ x ∈ l, ∃ y, f x = .ok y := by
  induction l generalizing r with
  | nil => simp
  | cons a l ih =>
    intro x hx
    unfold mapRes at h
    cases ha : f a with
    | error e => rw [ha, Res.error_bind] at h; cases h
    | ok y =>
      rw [ha, Res.ok_bind] at h
      cases hl : mapRes f l with
      | error e => rw [hl, Res.error_bind] at h; cases h
      | ok ys =>
        rcases List.mem_cons.1 hx with rfl | hx
        · exact ⟨y, ha⟩
        · exact ih hl x hx

theorem exifFloat_readable {ps : Parse K} {d : Tags} {k : String} {v : Option (EV K)} (h : exifFloat ps d k = .ok v) {s : List Char} (hs : d.get? k = some s) :
    Readable ps s := by
  unfold exifFloat at h
  rw [hs] at h
  simp only at h
  cases hn : exifNums ps s with
  | error e => rw [hn, Res.error_bind] at h; cases h
  | ok l =>
    intro t ht hne
    unfold exifNums at hn
    obtain ⟨y, hy⟩ := mapRes_ok_mem hn t (by
      rw [List.mem_filter]
      exact ⟨ht, by simpa [List.length_pos_iff] using hne⟩)
    cases hf : ps.flt (strip [' ', '('] t) with
    | none => rw [hf] at hy; cases hy
    | some x => exact ⟨x, rfl⟩

theorem bind_ok {α β : Type} {a : Res α} {f : α → Res β} {b : β} (h : (a >>= f) = .ok b) : ∃ x, a = .ok x ∧ f x = .ok b := by
  cases a with
  | error e => rw [Res.error_bind] at h; cases h
  | ok x => exact ⟨x, rfl, h⟩

theorem exifInit_parts {ps : Parse K} {lower str : List Char → String} {f : ImFile} {e : ExifObj K} (h : exifInit ps lower str f = .ok e) :
    (∃ t, tagImSize ps f.exifDict = .ok t) ∧ exifFloat ps f.exifDict "EXIF_FocalLengthIn35mmFilm" = .ok e.focalLen35 ∧
    exifFloat ps f.exifDict "EXIF_FocalLength" = .ok e.focalLen := by
  unfold exifInit at h
  simp only at h
  obtain ⟨t, ht, h⟩ := bind_ok h
  obtain ⟨s, hs, h⟩ := bind_ok h
  obtain ⟨f35, h35, h⟩ := bind_ok h
  obtain ⟨fl, hfl, h⟩ := bind_ok h
  obtain ⟨lla, hlla, h⟩ := bind_ok h
  obtain ⟨rpy, hrpy, h⟩ := bind_ok h
  obtain ⟨dw, hdw, h⟩ := bind_ok h
  cases h
  exact ⟨⟨t, ht⟩, h35, hfl⟩

/-- C117: an image is read only if the text of its size and focal length tags is numbers, its orientation a whole number, and its XMP text a document. -/
theorem C117_refused (ps : Parse K) (lower str : List Char → String) (parseXml : List Char → Option Xml) (r : RawFile) (e : ExifObj K)
    (h : exifFile ps lower str parseXml r = .ok e) :
    let d := if r.tags = [] then r.exifTags else r.tags
    (∀ k ∈ alwaysRead, ∀ s, d.get? k = some s → Readable ps s) ∧ (∀ s, d.get? "EXIF_Orientation" = some s → ∃ n, ps.int10 s = some n) ∧
    ∀ s, r.xmp = some s → ∃ x, parseXml (strip "xml:XMP=".toList s) = some x := by
  intro d
  unfold exifFile at h
  obtain ⟨x, hx, h⟩ := bind_ok h
  obtain ⟨o, ho, h⟩ := bind_ok h
  have hd : (⟨r.filename, r.imSize, r.tags, r.exifTags, x⟩ : ImFile).exifDict = d := by
    unfold ImFile.exifDict
    simp only [d, List.length_eq_zero_iff]
  simp only [hd] at ho
  obtain ⟨⟨t, ht⟩, h35, hfl⟩ := exifInit_parts h
  rw [hd] at ht h35 hfl
  refine ⟨?_, ?_, ?_⟩
  · intro k hk s hs
    unfold tagImSize at ht
    obtain ⟨w, hw, ht⟩ := bind_ok ht
    obtain ⟨hh, hh', ht⟩ := bind_ok ht
    simp only [alwaysRead, List.mem_cons, List.not_mem_nil, or_false] at hk
    rcases hk with rfl | rfl | rfl | rfl
    · exact exifFloat_readable hw hs
    · exact exifFloat_readable hh' hs
    · exact exifFloat_readable h35 hs
    · exact exifFloat_readable hfl hs
  · intro s hs
    unfold orientation at ho
    simp only [hs] at ho
    cases hn : ps.int10 s with
    | none => rw [hn] at ho; cases ho
    | some n => exact ⟨n, rfl⟩
  · intro s hs
    unfold xmpDoc at hx
    rw [hs] at hx
    have e : "xml:XMP=".toList = ['x', 'm', 'l', ':', 'X', 'M', 'P', '='] := by decide
    rw [e]
    cases hp : parseXml (strip ['x', 'm', 'l', ':', 'X', 'M', 'P', '='] s) with
    | none => simp only [hp] at hx; cases hx
    | some x => exact ⟨x, rfl⟩

theorem wrapped_error {α : Type} {a : Res α} {x : PyErr} (h : wrapped a = .error x) :
    (x = .fileNotFoundError ∧ a = .error .fileNotFoundError) ∨ (x = .runtimeError ∧ ∃ y, a = .error y ∧ y ≠ .fileNotFoundError) := by
  cases a with
  | ok a => cases h
  | error y =>
    by_cases hy : y = .fileNotFoundError
    · subst hy
      cases h
      exact Or.inl ⟨rfl, rfl⟩
    · have : wrapped (.error y : Res α) = .error .runtimeError := by
        cases y <;> first | rfl | exact absurd rfl hy
      rw [this] at h
      cases h
      exact Or.inr ⟨rfl, y, rfl, hy⟩

theorem foldlM_error {σ α : Type} {f : σ → α → Res σ} {l : List α} {s : σ} {x : PyErr} (h : l.foldlM f s = .error x) : ∃ s' a, a ∈ l ∧ f s' a = .error x := by
  induction l generalizing s with
  | nil => cases h
  | cons a l ih =>
    rw [List.foldlM_cons] at h
    cases hf : f s a with
    | error y =>
      rw [hf, Res.error_bind] at h
      cases h
      exact ⟨s, a, by simp, hf⟩
    | ok s' =>
      rw [hf, Res.ok_bind] at h
      obtain ⟨s'', b, hb, h⟩ := ih h
      exact ⟨s'', b, by simp [hb], h⟩

theorem bind_error {α β : Type} {a : Res α} {f : α → Res β} {x : PyErr} (h : (a >>= f) = .error x) : a = .error x ∨ ∃ y, a = .ok y ∧ f y = .error x := by
  cases a with
  | error e => rw [Res.error_bind] at h; cases h; exact Or.inl rfl
  | ok y => exact Or.inr ⟨y, rfl, h⟩

theorem mapRes_error_mem {α β : Type} {f : α → Res β} {l : List α} {x : PyErr} (h : mapRes f l = .error x) : ∃ a ∈ l, f a = .error x := by
  induction l with
  | nil => cases h
  | cons a l ih =>
    unfold mapRes at h
    rcases bind_error h with h | ⟨y, -, h⟩
    · exact ⟨a, by simp, h⟩
    · rcases bind_error h with h | ⟨ys, -, h⟩
      · obtain ⟨b, hb, h⟩ := ih h
        exact ⟨b, by simp [hb], h⟩
      · cases h

theorem findUtm_error {es : List (ExifObj K)} {x : PyErr} (h : findUtm es = .error x) : x = .paramError ∧ ∃ e ∈ es, e.lla = none := by
  unfold findUtm at h
  rcases bind_error h with h | ⟨y, -, h⟩
  · obtain ⟨e, he, h⟩ := mapRes_error_mem h
    split at h
    · cases h
      exact ⟨rfl, e, he, by assumption⟩
    · cases h
  · cases h

/-- C117: whatever the tags say, making a reader gives a reader or raises FileNotFoundError (for a file that is not there), RuntimeError (for a file that cannot be opened, or
whose tags cannot be read) or ParamError (for an image without a position when there is no CRS). -/
theorem C117_reader (ps : Parse K) (lower str : List Char → String) (parseXml : List Char → Option Xml) (crs : Bool) (files : List (Res RawFile)) (x : PyErr)
    (h : exifReader ps lower str parseXml crs files = .error x) :
    (x = .fileNotFoundError ∧ ∃ f ∈ files, (f >>= exifFile ps lower str parseXml) = .error .fileNotFoundError) ∨
    (x = .runtimeError ∧ ∃ f ∈ files, ∃ y, (f >>= exifFile ps lower str parseXml) = .error y) ∨
    (x = .paramError ∧ crs = false ∧ ∃ es, readExif ps lower str parseXml files = .ok es ∧ ∃ e ∈ es, e.lla = none) := by
  unfold exifReader at h
  cases hr : readExif ps lower str parseXml files with
  | error y =>
    rw [hr, Res.error_bind] at h
    cases h
    unfold readExif at hr
    obtain ⟨es, f, hf, he⟩ := foldlM_error hr
    cases hw : wrapped (f >>= exifFile ps lower str parseXml) with
    | ok e => rw [hw, Res.ok_bind] at he; cases he
    | error z =>
      rw [hw, Res.error_bind] at he
      cases he
      rcases wrapped_error hw with ⟨h1, h2⟩ | ⟨h1, y, h2, -⟩
      · exact Or.inl ⟨h1, f, hf, h2⟩
      · exact Or.inr (Or.inl ⟨h1, f, hf, y, h2⟩)
  | ok es =>
    rw [hr, Res.ok_bind] at h
    split at h
    · rename_i hc
      cases hu : findUtm es with
      | ok z => rw [hu, Res.ok_bind] at h; cases h
      | error z =>
        rw [hu, Res.error_bind] at h
        cases h
        obtain ⟨h1, h2⟩ := findUtm_error hu
        exact Or.inr (Or.inr ⟨h1, hc.1, es, rfl, h2⟩)
    · cases h

theorem intParam_error {e : ExifObj K} {x : PyErr} (h : intParam e = .error x) : x = .paramError ∨ (x = .typeError ∧ ∃ l, e.focalLen35 = some (.many l)) := by
  unfold intParam at h
  split at h
  · cases h
  · split at h
    · cases h
    · split at h
      · split at h <;> cases h
      · cases h
        rename_i l _ hl
        exact Or.inr ⟨rfl, l, hl⟩
      · cases h
        exact Or.inl rfl

/-- C117: interior parameters are returned, or ParamError is raised, for images whose 35 mm focal length is one number.  What is missing: with several numbers there is a
TypeError (`C117_tuple_fails`). -/
theorem C117_interior_partial (es : List (ExifObj K)) (hs : ∀ e ∈ es, ∀ l, e.focalLen35 ≠ some (.many l)) (x : PyErr) (h : readInt es = .error x) : x = .paramError := by
  unfold readInt at h
  obtain ⟨d, e, he, h⟩ := foldlM_error h
  cases hi : intParam e with
  | ok p => rw [hi, Res.ok_bind] at h; cases h
  | error y =>
    rw [hi, Res.error_bind] at h
    cases h
    rcases intParam_error hi with rfl | ⟨-, l, hl⟩
    · rfl
    · exact absurd hl (hs e he l)

/-- C117: exterior parameters are returned, or ParamError is raised, when the CRS conversions succeed for the positions of the images. -/
theorem C117_exterior (fs : ExtFuns K) (es : List (ExifObj K))
    (hf : ∀ e ∈ es, ∀ lla rpy, e.lla = some lla → e.rpy = some rpy → (∃ o, fs.rpyToOpk rpy lla = .ok o) ∧ ∃ p, fs.transform lla.2.1 lla.1 lla.2.2 = .ok p)
    (x : PyErr) (h : readExt fs es = .error x) : x = .paramError ∧ ∃ e ∈ es, e.lla = none ∨ e.rpy = none := by
  unfold readExt at h
  obtain ⟨d, e, he, h⟩ := foldlM_error h
  cases hl : e.lla with
  | none =>
    have : extParam fs e = .error .paramError := by unfold extParam; rw [hl]
    rw [this, Res.error_bind] at h
    cases h
    exact ⟨rfl, e, he, Or.inl hl⟩
  | some lla =>
    cases hr : e.rpy with
    | none =>
      have : extParam fs e = .error .paramError := by unfold extParam; rw [hl]; simp only [hr]
      rw [this, Res.error_bind] at h
      cases h
      exact ⟨rfl, e, he, Or.inr hr⟩
    | some rpy =>
      obtain ⟨⟨o, ho⟩, p, hp⟩ := hf e he lla rpy hl hr
      have : extParam fs e = .ok ⟨p, o, camId e⟩ := by
        unfold extParam
        rw [hl]
        simp only [hr, ho, hp, Res.ok_bind]
        rfl
      rw [this, Res.ok_bind] at h
      cases h

end

/-! ## Examples -/

/-- A parser of whole numbers of one digit. -/
def digitParse : Parse ℚ where
  flt s := match s with
    | [c] => if c.isDigit then some (c.toNat - '0'.toNat : ℚ) else none
    | _ => none
  int10 s := match s with
    | [c] => if c.isDigit then some (c.toNat - '0'.toNat : ℤ) else none
    | _ => none
  int0 _ := some 0

/-- An image with the given tag and no other. -/
def oneTag (k : String) (v : List Char) : RawFile := ⟨"a.jpg", (4, 3), [(k, v)], [], none⟩

/-- C117: an image whose 35 mm focal length has two numbers is taken by the reader; reading its interior parameters raises TypeError. -/
theorem C117_tuple_fails : ∃ es : List (ExifObj ℚ),
    exifReader digitParse (fun s => String.ofList s) (fun s => String.ofList s) (fun _ => none) true [.ok (oneTag "EXIF_FocalLengthIn35mmFilm" "(5) (7)".toList)] = .ok es ∧
      es.length = 1 ∧ readInt es = .error .typeError := by
  refine ⟨_, rfl, rfl, ?_⟩
  decide +kernel

/-- Letters for a number are refused, a number is read. -/
example : exifReader digitParse (fun s => String.ofList s) (fun s => String.ofList s) (fun _ => none) true [.ok (oneTag "EXIF_FocalLengthIn35mmFilm" "(x)".toList)] = .error .runtimeError ∧
    exifReader digitParse (fun s => String.ofList s) (fun s => String.ofList s) (fun _ => none) true [.ok (oneTag "EXIF_FocalLengthIn35mmFilm" "(5)".toList), .error .fileNotFoundError] =
      .error .fileNotFoundError ∧
    exifReader digitParse (fun s => String.ofList s) (fun s => String.ofList s) (fun _ => none) false [.ok (oneTag "EXIF_FocalLengthIn35mmFilm" "(5)".toList)] = .error .paramError ∧
    exifReader digitParse (fun s => String.ofList s) (fun s => String.ofList s) (fun _ => none) true [.ok { oneTag "EXIF_Model" [] with xmp := some "<a".toList }] = .error .runtimeError :=
  ⟨rfl, rfl, rfl, rfl⟩

example : ∃ e : ExifObj ℚ, exifFile digitParse (fun s => String.ofList s) (fun s => String.ofList s) (fun _ => none) (oneTag "EXIF_FocalLengthIn35mmFilm" "(5)".toList) = .ok e ∧
    e.focalLen35 = some (.one 5) ∧ readInt [e] = .ok [("unknown", ⟨false, (4, 3), [5 / 36], none, none, []⟩)] :=
  ⟨_, rfl, by decide +kernel, by decide +kernel⟩

end Verif.Exif
