import Verif.Base.Err
import Verif.Base.Dict
import Mathlib.Data.List.TakeWhile

/-!
# Reading the parameters of a factory: C69 and C70

`FrameCameras._read_param` and `FrameCameras.from_images`, orthority/factory.py:113-202.
-/

set_option autoImplicit false

namespace Verif.Factory

/-! ## Model -/

/-- orthority/factory.py:160, 180 `Path(get_filename(file)).suffix.lower()`, of a file name without directory: the part from the
last dot, unless the dot is the first or last character.  Simplified: only the case of ASCII letters is changed. -/
def suffixOf (name : List Char) : List Char :=
  let ext := (name.reverse.takeWhile (· ≠ '.')).reverse
  if ext.length + 1 < name.length ∧ ext ≠ [] then '.' :: ext.map Char.toLower else []

/-- orthority/factory.py:100-101: a parameter argument is a dictionary, or a file with an identity (path, `OpenFile` or file
object, as compared at line 169) and a name. -/
inductive Arg (D : Type)
  | dict (d : D)
  | file (f : ℕ) (name : List Char)

/-- orthority/param_io.py:872, 880: a CRS argument is a string or CRS object. -/
inductive CrsArg (C : Type)
  | text (s : String)
  | crs (c : C)

/-- The functions of `param_io` that `_read_param` calls (modelled elsewhere), for the interior parameters `I` and exterior
parameters `E` of an image (orthority/factory.py:163, 170, 182-186).  A reader gives exterior parameters and a CRS; `osfm` also interior parameters.  The keyword
arguments other than `crs` are fixed. -/
structure Readers (I E C : Type) where
  otyInt : ℕ → Res (Dict String I)
  osfmInt : ℕ → Res (Dict String I)
  csv : ℕ → Option (CrsArg C) → Res (Dict String E × Option C)
  osfm : ℕ → Option (CrsArg C) → Res (Dict String E × Option C × Res (Dict String I))
  oty : ℕ → Res (Dict String E × Option C)
  parseCrs : String → Res C

variable {I E C : Type}

/-- orthority/factory.py:157-176: the interior parameters, when they are read before the exterior parameters. -/
def firstInts (r : Readers I E C) (int : Arg (Dict String I)) (ext : Arg (Dict String E)) : Res (Option (Dict String I)) :=
  match int with
  | .dict d => .ok (some d)
  | .file f name =>
    if suffixOf name = ".yaml".toList ∨ suffixOf name = ".yml".toList then (r.otyInt f).map some
    else if suffixOf name = ".json".toList then
      match ext with
      | .file g _ => if f ≠ g then (r.osfmInt f).map some else .ok none
      | .dict _ => (r.osfmInt f).map some
    else .error .paramError

/-- orthority/factory.py:178-195: what a reader of exterior parameters gives: exterior parameters, CRS and the result of its `read_int_param`.  Readers of
CSV and GeoJSON files have no such method. -/
def readExtFile (r : Readers I E C) (f : ℕ) (name : List Char) (kw : Option (CrsArg C)) :
    Res (Dict String E × Option C × Res (Dict String I)) :=
  if suffixOf name = ".csv".toList ∨ suffixOf name = ".txt".toList then
    match r.csv f kw with
    | .error e => .error e
    | .ok (d, c) => .ok (d, c, .error .attributeError)
  else if suffixOf name = ".json".toList then r.osfm f kw
  else if suffixOf name = ".geojson".toList then
    match r.oty f with
    | .error e => .error e
    | .ok (d, c) => .ok (d, c, .error .attributeError)
  else .error .paramError

/-- orthority/factory.py:199-201: the CRS of the reader, or of the keyword argument. -/
def finalCrs (r : Readers I E C) (c : Option C) (kw : Option (CrsArg C)) : Res (Option C) :=
  match c with
  | some c => .ok (some c)
  | none => match kw with
    | none => .ok none
    | some (.crs c) => .ok (some c)
    | some (.text s) => (r.parseCrs s).map some

/-- orthority/factory.py:150-203 `FrameCameras._read_param`.  `int_param_dict or reader.read_int_param()` also reads when
the dictionary is empty. -/
def readParam (r : Readers I E C) (int : Arg (Dict String I)) (ext : Arg (Dict String E)) (kw : Option (CrsArg C)) :
    Res (Dict String I × Dict String E × Option C) :=
  match firstInts r int ext with
  | .error e => .error e
  | .ok first =>
    match ext with
    | .dict d => (finalCrs r none kw).map fun c => (first.getD [], d, c)
    | .file f name =>
      match readExtFile r f name kw with
      | .error e => .error e
      | .ok (d, c, rest) =>
        let ints : Res (Dict String I) := match first with
          | some (p :: l) => .ok (p :: l)
          | _ => rest
        match ints with
        | .error e => .error e
        | .ok ints => (finalCrs r c kw).map fun c => (ints, d, c)

/-! ## C69: what the parameters of a factory are -/

/-- The kind of file that a name has, by its ending in any case (docs/file_formats). -/
def Ends (name : List Char) (ext : String) : Prop :=
  ∃ stem e : List Char, stem ≠ [] ∧ name = stem ++ '.' :: e ∧ '.' ∉ e ∧ e.map Char.toLower = ext.toList

theorem takeWhile_append_stop {α : Type} (p : α → Bool) (l : List α) (a : α) (r : List α) (hl : ∀ x ∈ l, p x = true)
    (ha : p a = false) : (l ++ a :: r).takeWhile p = l := by
  induction l with
  | nil => simp [ha]
  | cons x l ih =>
    simp only [List.cons_append]
    rw [List.takeWhile_cons_of_pos (hl x (by simp)), ih fun y hy => hl y (by simp [hy])]

theorem suffix_iff (name : List Char) (ext : String) (he : ext.toList ≠ []) :
    suffixOf name = '.' :: ext.toList ↔ Ends name ext := by
  constructor
  · intro h
    simp only [suffixOf] at h
    split at h
    · rename_i hc
      obtain ⟨hlen, hne⟩ := hc
      simp only [List.cons.injEq, true_and] at h
      have hsplit := List.takeWhile_append_dropWhile (p := (· ≠ '.')) (l := name.reverse)
      have hmem : ∀ x ∈ name.reverse.takeWhile (· ≠ '.'), x ≠ '.' := by
        intro x hx
        have := List.mem_takeWhile_imp hx
        simpa using this
      cases hd : name.reverse.dropWhile (· ≠ '.') with
      | nil =>
        rw [hd, List.append_nil] at hsplit
        have : name.reverse.length = (name.reverse.takeWhile (· ≠ '.')).length := by rw [hsplit]
        simp only [List.length_reverse] at this hlen
        omega
      | cons c rest =>
        have hc : c = '.' := by
          have := List.head?_dropWhile_not (fun x : Char => decide (x ≠ '.')) name.reverse
          rw [hd] at this
          simpa using this
        subst hc
        rw [hd] at hsplit
        have hname : name = rest.reverse ++ '.' :: (name.reverse.takeWhile (· ≠ '.')).reverse := by
          have := congrArg List.reverse hsplit
          rw [List.reverse_reverse] at this
          conv_lhs => rw [← this]
          rw [List.reverse_append, List.reverse_cons, List.append_assoc, List.singleton_append]
        refine ⟨rest.reverse, (name.reverse.takeWhile (· ≠ '.')).reverse, ?_, hname, ?_, h⟩
        · intro h0
          rw [h0] at hname
          have : name.length = (name.reverse.takeWhile (· ≠ '.')).reverse.length + 1 := by
            conv_lhs => rw [hname]
            simp
          omega
        · intro hx
          rw [List.mem_reverse] at hx
          exact hmem _ hx rfl
    · cases h
  · rintro ⟨stem, e, hs, rfl, hdot, hl⟩
    have hrev : (stem ++ '.' :: e).reverse = e.reverse ++ '.' :: stem.reverse := by simp
    have htw : ((stem ++ '.' :: e).reverse.takeWhile (· ≠ '.')).reverse = e := by
      rw [hrev, takeWhile_append_stop _ _ _ _ (fun x hx => by
        simp only [ne_eq, decide_not, Bool.not_eq_eq_eq_not, Bool.not_true, decide_eq_false_iff_not]
        rintro rfl
        exact hdot (List.mem_reverse.1 hx)) (by simp), List.reverse_reverse]
    have hne : e ≠ [] := by
      rintro rfl
      exact he (by simpa using hl.symm)
    have hlen : 0 < stem.length := List.length_pos_of_ne_nil hs
    simp only [suffixOf, htw]
    rw [if_pos ⟨by simp; omega, hne⟩, hl]

/-- The interior parameters that the arguments name: a dictionary is used as it is, a YAML file is an Orthority file, and a
JSON file an OpenSfM file, which is read once when it is also the exterior parameter file. -/
inductive IntOf (r : Readers I E C) (kw : Option (CrsArg C)) :
    Arg (Dict String I) → Arg (Dict String E) → Dict String I → Prop
  | dict (d : Dict String I) (ext : Arg (Dict String E)) : IntOf r kw (.dict d) ext d
  | yaml (f : ℕ) (name : List Char) (ext : Arg (Dict String E)) (d : Dict String I)
      (h : Ends name "yaml" ∨ Ends name "yml") (hd : r.otyInt f = .ok d) : IntOf r kw (.file f name) ext d
  | json (f : ℕ) (name : List Char) (ext : Arg (Dict String E)) (d : Dict String I) (h : Ends name "json")
      (hext : ∀ m, ext ≠ .file f m) (hd : r.osfmInt f = .ok d) : IntOf r kw (.file f name) ext d
  | both (f : ℕ) (name : List Char) (d : Dict String I) (e : Dict String E) (c : Option C) (h : Ends name "json")
      (hd : r.osfm f kw = .ok (e, c, .ok d)) : IntOf r kw (.file f name) (.file f name) d

/-- The exterior parameters and CRS that the arguments name. -/
inductive ExtOf (r : Readers I E C) (kw : Option (CrsArg C)) : Arg (Dict String E) → Dict String E → Option C → Prop
  | dict (d : Dict String E) : ExtOf r kw (.dict d) d none
  | csv (f : ℕ) (name : List Char) (d : Dict String E) (c : Option C) (h : Ends name "csv" ∨ Ends name "txt")
      (hd : r.csv f kw = .ok (d, c)) : ExtOf r kw (.file f name) d c
  | json (f : ℕ) (name : List Char) (d : Dict String E) (c : Option C) (i : Res (Dict String I)) (h : Ends name "json")
      (hd : r.osfm f kw = .ok (d, c, i)) : ExtOf r kw (.file f name) d c
  | geojson (f : ℕ) (name : List Char) (d : Dict String E) (c : Option C) (h : Ends name "geojson")
      (hd : r.oty f = .ok (d, c)) : ExtOf r kw (.file f name) d c

/-- The CRS of a factory: the one of the file, else the one of the `crs` argument, else none. -/
inductive CrsOf (r : Readers I E C) : Option C → Option (CrsArg C) → Option C → Prop
  | file (c : C) (kw : Option (CrsArg C)) : CrsOf r (some c) kw (some c)
  | crs (c : C) : CrsOf r none (some (.crs c)) (some c)
  | text (s : String) (c : C) (h : r.parseCrs s = .ok c) : CrsOf r none (some (.text s)) (some c)
  | none : CrsOf r none none none

theorem finalCrs_iff (r : Readers I E C) (c : Option C) (kw : Option (CrsArg C)) (o : Option C) :
    finalCrs r c kw = .ok o ↔ CrsOf r c kw o := by
  constructor
  · intro h
    unfold finalCrs at h
    split at h
    · cases h; exact .file _ _
    · split at h
      · cases h; exact .none
      · cases h; exact .crs _
      · rename_i s
        cases hp : r.parseCrs s with
        | error e => rw [hp] at h; cases h
        | ok c => rw [hp] at h; cases h; exact .text _ _ hp
  · rintro (⟨c, kw⟩ | ⟨c⟩ | ⟨s, c, h⟩ | _)
    · rfl
    · rfl
    · simp [finalCrs, h, Except.map]
    · rfl

theorem suf (name : List Char) (s ext : String) (h : s.toList = '.' :: ext.toList) (he : ext.toList ≠ []) :
    suffixOf name = s.toList ↔ Ends name ext := by
  rw [h]; exact suffix_iff name ext he

theorem readExtFile_ok (r : Readers I E C) (f : ℕ) (name : List Char) (kw : Option (CrsArg C)) (d : Dict String E)
    (c : Option C) : (∃ i, readExtFile r f name kw = .ok (d, c, i)) ↔ ExtOf r kw (.file f name) d c := by
  have s1 := suf name ".csv" "csv" (by decide) (by decide)
  have s2 := suf name ".txt" "txt" (by decide) (by decide)
  have s3 := suf name ".json" "json" (by decide) (by decide)
  have s4 := suf name ".geojson" "geojson" (by decide) (by decide)
  constructor
  · rintro ⟨i, h⟩
    unfold readExtFile at h
    split_ifs at h with h1 h2 h3
    · rw [s1, s2] at h1
      split at h
      · cases h
      · rename_i hd; cases h; exact .csv _ _ _ _ h1 hd
    · exact .json _ _ _ _ _ (s3.1 h2) h
    · split at h
      · cases h
      · rename_i hd; cases h; exact .geojson _ _ _ _ (s4.1 h3) hd
  · rintro (_ | ⟨_, _, _, _, h, hd⟩ | ⟨_, _, _, _, i, h, hd⟩ | ⟨_, _, _, _, h, hd⟩)
    · rw [← s1, ← s2] at h
      exact ⟨.error .attributeError, by simp only [readExtFile, if_pos h, hd]⟩
    · have h3 := s3.2 h
      refine ⟨i, ?_⟩
      unfold readExtFile
      rw [if_neg (by rw [h3]; decide), if_pos h3, hd]
    · have h4 := s4.2 h
      refine ⟨.error .attributeError, ?_⟩
      unfold readExtFile
      rw [if_neg (by rw [h4]; decide), if_neg (by rw [h4]; decide), if_pos h4, hd]

theorem firstInts_some (r : Readers I E C) (kw : Option (CrsArg C)) (int : Arg (Dict String I)) (ext : Arg (Dict String E))
    (d : Dict String I) (h : firstInts r int ext = .ok (some d)) : IntOf r kw int ext d := by
  cases int with
  | dict d' => cases h; exact .dict _ _
  | file f name =>
    have s1 := suf name ".yaml" "yaml" (by decide) (by decide)
    have s2 := suf name ".yml" "yml" (by decide) (by decide)
    have s3 := suf name ".json" "json" (by decide) (by decide)
    simp only [firstInts] at h
    split_ifs at h with h1 h2
    · rw [s1, s2] at h1
      cases hd : r.otyInt f with
      | error e => rw [hd] at h; cases h
      | ok d' => rw [hd] at h; cases h; exact .yaml _ _ _ _ h1 hd
    · have key : (∀ m, ext ≠ .file f m) → (r.osfmInt f).map some = .ok (some d) → IntOf r kw (.file f name) ext d := by
        intro hext h
        cases hd : r.osfmInt f with
        | error e => rw [hd] at h; cases h
        | ok d' => rw [hd] at h; cases h; exact .json _ _ _ _ (s3.1 h2) hext hd
      cases ext with
      | dict e => exact key (by intro m h0; cases h0) h
      | file g m =>
        simp only at h
        split_ifs at h with h4
        · exact key (by intro m h0; cases h0; exact h4 rfl) h
        · cases h

theorem firstInts_none (r : Readers I E C) (int : Arg (Dict String I)) (ext : Arg (Dict String E))
    (h : firstInts r int ext = .ok none) : ∃ f n m, int = .file f n ∧ ext = .file f m ∧ Ends n "json" := by
  cases int with
  | dict d' => cases h
  | file f name =>
    have s3 := suf name ".json" "json" (by decide) (by decide)
    have no : ∀ x : Res (Dict String I), x.map some ≠ .ok none := by
      intro x; cases x <;> intro h <;> cases h
    simp only [firstInts] at h
    split_ifs at h with h1 h2
    · exact absurd h (no _)
    · cases ext with
      | dict e => exact absurd h (no _)
      | file g m =>
        simp only at h
        split_ifs at h with h4
        · exact absurd h (no _)
        · have h4 : f = g := not_not.1 h4
          exact ⟨f, name, m, rfl, by rw [h4], s3.1 h2⟩

theorem firstInts_of (r : Readers I E C) (kw : Option (CrsArg C)) (int : Arg (Dict String I)) (ext : Arg (Dict String E))
    (d : Dict String I) (h : IntOf r kw int ext d) : firstInts r int ext = .ok (some d) ∨
      firstInts r int ext = .ok none ∧ ∃ f n e c, ext = .file f n ∧ Ends n "json" ∧ r.osfm f kw = .ok (e, c, .ok d) := by
  cases h with
  | dict => exact .inl rfl
  | yaml f name _ _ h hd =>
    rw [← suf name ".yaml" "yaml" (by decide) (by decide), ← suf name ".yml" "yml" (by decide) (by decide)] at h
    exact .inl (by simp only [firstInts, if_pos h, hd]; rfl)
  | json f name _ _ h hext hd =>
    rw [← suf name ".json" "json" (by decide) (by decide)] at h
    refine .inl ?_
    simp only [firstInts]
    rw [if_neg (by rw [h]; decide), if_pos h]
    cases ext with
    | dict e => simp only [hd]; rfl
    | file g m =>
      have : f ≠ g := by rintro rfl; exact hext m rfl
      simp only [if_pos this, hd]; rfl
  | both f name _ e c h hd =>
    refine .inr ⟨?_, f, name, e, c, rfl, h, hd⟩
    rw [← suf name ".json" "json" (by decide) (by decide)] at h
    simp only [firstInts]
    rw [if_neg (by rw [h]; decide), if_pos h, if_neg (by simp)]

/-- C69: what a factory is made of.  The interior parameters, exterior parameters and CRS are exactly those that the arguments
name, for any arguments whose interior parameters are not empty. -/
theorem C69_reads_partial (r : Readers I E C) (int : Arg (Dict String I)) (ext : Arg (Dict String E)) (kw : Option (CrsArg C))
    (hname : ∀ f n m, int = .file f n → ext = .file f m → n = m) (hne : ¬ IntOf r kw int ext [])
    (ints : Dict String I) (exts : Dict String E) (crs : Option C) :
    readParam r int ext kw = .ok (ints, exts, crs) ↔
      IntOf r kw int ext ints ∧ ∃ c, ExtOf r kw ext exts c ∧ CrsOf r c kw crs := by
  have hmap : ∀ (x : Res (Option C)) (i : Dict String I) (e : Dict String E),
      (x.map fun c => (i, e, c)) = .ok (ints, exts, crs) ↔ i = ints ∧ e = exts ∧ x = .ok crs := by
    intro x i e
    cases x with
    | error e => simp [Except.map]
    | ok c => simp [Except.map]
  have hextdict : ∀ (d e : Dict String E) (c : Option C), ExtOf r kw (.dict d) e c ↔ d = e ∧ c = none := by
    intro d e c
    constructor
    · rintro ⟨⟩; exact ⟨rfl, rfl⟩
    · rintro ⟨rfl, rfl⟩; exact .dict _
  constructor
  · intro h
    unfold readParam at h
    split at h
    · cases h
    rename_i first hfirst
    split at h
    · rename_i e
      rw [hmap] at h
      obtain ⟨h1, h2, h3⟩ := h
      cases first with
      | none => obtain ⟨f, n, m, _, h0, _⟩ := firstInts_none r _ _ hfirst; cases h0
      | some i =>
        simp only [Option.getD_some] at h1
        subst h1
        exact ⟨firstInts_some r kw _ _ _ hfirst, none, (hextdict _ _ _).2 ⟨h2, rfl⟩, (finalCrs_iff r _ _ _).1 h3⟩
    · rename_i f name
      split at h
      · cases h
      rename_i e c rest hread
      have hext := (readExtFile_ok r f name kw e c).1 ⟨rest, hread⟩
      cases first with
      | some i =>
        have hi := firstInts_some r kw _ _ _ hfirst
        cases i with
        | nil => exact absurd hi hne
        | cons p l =>
          simp only [hmap] at h
          obtain ⟨h1, h2, h3⟩ := h
          subst h1 h2
          exact ⟨hi, c, hext, (finalCrs_iff r _ _ _).1 h3⟩
      | none =>
        obtain ⟨f', n, m, h0, h1, h2⟩ := firstInts_none r _ _ hfirst
        cases h1
        have := hname _ _ _ h0 rfl
        subst this h0
        cases rest with
        | error e => simp only at h; cases h
        | ok ints' =>
          simp only [hmap] at h
          obtain ⟨h1, h3, h4⟩ := h
          subst h1 h3
          refine ⟨?_, c, hext, (finalCrs_iff r _ _ _).1 h4⟩
          have s3 := (suf n ".json" "json" (by decide) (by decide)).2 h2
          unfold readExtFile at hread
          rw [if_neg (by rw [s3]; decide), if_pos s3] at hread
          exact .both _ _ _ _ _ h2 hread
  · rintro ⟨hi, c, he, hc⟩
    have hc := (finalCrs_iff r _ _ _).2 hc
    unfold readParam
    rcases firstInts_of r kw int ext ints hi with hf | ⟨hf, f, n, e', c', rfl, hj, hd⟩
    · rw [hf]
      cases ext with
      | dict d =>
        obtain ⟨rfl, rfl⟩ := (hextdict _ _ _).1 he
        simp only [hmap]
        exact ⟨rfl, trivial, hc⟩
      | file f name =>
        obtain ⟨i, hread⟩ := (readExtFile_ok r f name kw exts c).2 he
        simp only [hread]
        cases ints with
        | nil => exact absurd hi hne
        | cons p l => simp only [hmap]; exact ⟨trivial, trivial, hc⟩
    · rw [hf]
      have s3 := (suf n ".json" "json" (by decide) (by decide)).2 hj
      have hread : readExtFile r f n kw = .ok (e', c', .ok ints) := by
        unfold readExtFile
        rw [if_neg (by rw [s3]; decide), if_pos s3, hd]
      obtain ⟨i, hread'⟩ := (readExtFile_ok r f n kw exts c).2 he
      rw [hread] at hread'
      cases hread'
      simp only [hread, hmap]
      exact ⟨trivial, trivial, hc⟩

/-- A file of interior parameters with another ending is refused with `ParamError`. -/
theorem C69_int_unsupported (r : Readers I E C) (f : ℕ) (name : List Char) (ext : Arg (Dict String E))
    (kw : Option (CrsArg C)) (h : ∀ e ∈ ["yaml", "yml", "json"], ¬ Ends name e) :
    readParam r (.file f name) ext kw = .error .paramError := by
  have h1 := h "yaml" (by simp)
  have h2 := h "yml" (by simp)
  have h3 := h "json" (by simp)
  rw [← suf name ".yaml" "yaml" (by decide) (by decide)] at h1
  rw [← suf name ".yml" "yml" (by decide) (by decide)] at h2
  rw [← suf name ".json" "json" (by decide) (by decide)] at h3
  have : firstInts r (.file f name) ext = .error .paramError := by
    simp only [firstInts]
    rw [if_neg (by simp only [h1, h2, or_self, not_false_eq_true]), if_neg h3]
  simp only [readParam, this]

/-- A file of exterior parameters with another ending is refused with `ParamError`, once the interior parameters are read. -/
theorem C69_ext_unsupported (r : Readers I E C) (int : Dict String I) (f : ℕ) (name : List Char) (kw : Option (CrsArg C))
    (h : ∀ e ∈ ["csv", "txt", "json", "geojson"], ¬ Ends name e) :
    readParam r (.dict int) (.file f name) kw = .error .paramError := by
  have h1 := h "csv" (by simp)
  have h2 := h "txt" (by simp)
  have h3 := h "json" (by simp)
  have h4 := h "geojson" (by simp)
  rw [← suf name ".csv" "csv" (by decide) (by decide)] at h1
  rw [← suf name ".txt" "txt" (by decide) (by decide)] at h2
  rw [← suf name ".json" "json" (by decide) (by decide)] at h3
  rw [← suf name ".geojson" "geojson" (by decide) (by decide)] at h4
  have : readExtFile r f name kw = .error .paramError := by
    unfold readExtFile
    rw [if_neg (by simp only [h1, h2, or_self, not_false_eq_true]), if_neg h3, if_neg h4]
  simp only [readParam, firstInts, this]

/-- Where C69 fails: with empty interior parameters and a CSV or GeoJSON file, for which the reader has no method to read
interior parameters, the factory raises `AttributeError`, whatever the files hold. -/
theorem C69_empty_fails (r : Readers I E C) (f : ℕ) (name : List Char) (kw : Option (CrsArg C)) (exts : Dict String E)
    (c : Option C) (hend : ¬ Ends name "json") (he : ExtOf r kw (.file f name) exts c) :
    readParam r (.dict []) (.file f name) kw = .error .attributeError := by
  have s3 := suf name ".json" "json" (by decide) (by decide)
  obtain ⟨i, h⟩ := (readExtFile_ok r f name kw exts c).2 he
  have hi : i = .error .attributeError := by
    unfold readExtFile at h
    split_ifs at h with h1 h2 h3
    · split at h <;> cases h; rfl
    · exact absurd (s3.1 h2) hend
    · split at h <;> cases h; rfl
  simp only [readParam, firstInts, h, hi]

/-- A reader that knows one Orthority interior file `0`, one OpenSfM file `1`, one CSV file `2` and one GeoJSON file `3`. -/
def demo : Readers ℕ ℕ ℕ where
  otyInt f := if f = 0 then .ok [("cam", 1)] else .error .paramError
  osfmInt f := if f = 1 then .ok [("cam", 2)] else .error .paramError
  csv f _ := if f = 2 then .ok ([("a.tif", 5)], none) else .error .paramError
  osfm f _ := if f = 1 then .ok ([("a.tif", 6)], some 32634, .ok [("cam", 2)]) else .error .paramError
  oty f := if f = 3 then .ok ([("a.tif", 7)], some 32735) else .error .paramError
  parseCrs s := if s = "EPSG:32635" then .ok 32635 else .error .crsError

/-- The hypotheses of `C69_reads_partial` hold for a YAML and a CSV file, in capitals. -/
example : IntOf demo (some (.text "EPSG:32635")) (.file 0 "INT.YAML".toList) (.file 2 "ext.CSV".toList) [("cam", 1)] ∧
    ¬ IntOf demo (some (.text "EPSG:32635")) (.file 0 "INT.YAML".toList) (.file 2 "ext.CSV".toList) [] := by
  refine ⟨.yaml _ _ _ _ (.inl ⟨"INT".toList, "YAML".toList, by decide, by decide, by decide, by decide⟩) rfl, ?_⟩
  rintro (_ | ⟨_, _, _, _, h, hd⟩ | ⟨_, _, _, _, h, hext, hd⟩ | _)
  · cases hd
  · cases hd

example : readParam demo (.file 0 "INT.YAML".toList) (.file 2 "ext.CSV".toList) (some (.text "EPSG:32635")) =
    .ok ([("cam", 1)], [("a.tif", 5)], some 32635) := by decide +kernel

/-- One OpenSfM file for both: its CRS is kept although another is given. -/
example : readParam demo (.file 1 "r.json".toList) (.file 1 "r.json".toList) (some (.crs 4)) =
    .ok ([("cam", 2)], [("a.tif", 6)], some 32634) := by decide +kernel

example : readParam demo (.file 0 "int.yaml.bak".toList) (.dict []) none = .error .paramError := by decide +kernel

example : readParam demo (.dict []) (.file 2 "ext.csv".toList) none = .error .attributeError := by decide +kernel

/-! ## C70: `from_images` and its arguments -/

/-- Keyword arguments, as the python dictionary that the caller holds. -/
abbrev IoKw (C : Type) := Dict String (Option (CrsArg C))

/-- orthority/factory.py:111-139 `FrameCameras.from_images`, with `exif` for `ExifReader(files, **io_kwargs)`: interior
parameters, exterior parameters and CRS.  Gives the parameters of the factory, and the caller's dictionary after the call:
`io_kwargs or {}` is the caller's own dictionary when that is not empty, and is updated in place. -/
def fromImages {F : Type} (r : Readers I E C) (exif : F → IoKw C → Res (Dict String I × Dict String E × Option C)) (files : F)
    (io : Option (IoKw C)) : Res (Dict String I × Dict String E × Option C) × Option (IoKw C) :=
  let kw := io.getD []
  match exif files kw with
  | .error e => (.error e, io)
  | .ok (ints, exts, crs) =>
    let kw' := kw.set "crs" (crs.map .crs)
    (readParam r (.dict ints) (.dict exts) ((kw'.get? "crs").join),
      match io with
      | some (p :: l) => some (Dict.set (p :: l) "crs" (crs.map .crs))
      | io => io)

/-- C70: a factory made from images has the parameters and CRS of the reader of its images, for any keyword arguments. -/
theorem C70_factory {F : Type} (r : Readers I E C) (exif : F → IoKw C → Res (Dict String I × Dict String E × Option C))
    (files : F) (io : Option (IoKw C)) :
    (fromImages r exif files io).1 = exif files (io.getD []) := by
  unfold fromImages
  cases h : exif files (io.getD []) with
  | error e => simp only [h]
  | ok x =>
    obtain ⟨ints, exts, crs⟩ := x
    simp only [h, Dict.get?_set, if_true]
    cases crs <;> rfl

/-- A call does not change the caller's keyword arguments when there are none, or when they hold the `CRS` that the factory
has. -/
theorem C70_unchanged_partial {F : Type} (r : Readers I E C)
    (exif : F → IoKw C → Res (Dict String I × Dict String E × Option C)) (files : F) (io : Option (IoKw C))
    (h : io = none ∨ io = some [] ∨ ∃ kw c ints exts, io = some kw ∧ kw.get? "crs" = some (some (.crs c)) ∧
      exif files kw = .ok (ints, exts, some c)) :
    ∀ k, ((fromImages r exif files io).2.getD []).get? k = (io.getD []).get? k := by
  intro k
  rcases h with rfl | rfl | ⟨kw, c, ints, exts, rfl, hk, hx⟩
  · simp only [fromImages]
    cases exif files (Option.getD none []) <;> rfl
  · simp only [fromImages]
    cases exif files (Option.getD (some []) []) <;> rfl
  · unfold fromImages
    simp only [Option.getD_some, hx, Option.map_some]
    cases kw with
    | nil => rfl
    | cons p l =>
      simp only [Option.getD_some, Dict.get?_set]
      split_ifs with hc
      · rw [← hc, hk]
      · rfl

/-- Where C70 fails: with other keyword arguments, the CRS of the first factory is written in the caller's dictionary, and a
later call with that dictionary is a call with this CRS. -/
theorem C70_second_call_fails {F : Type} (r : Readers I E C)
    (exif : F → IoKw C → Res (Dict String I × Dict String E × Option C)) (files files' : F) (kw : IoKw C) (hkw : kw ≠ [])
    (ints : Dict String I) (exts : Dict String E) (c : C) (h : exif files kw = .ok (ints, exts, some c)) :
    (fromImages r exif files' (fromImages r exif files (some kw)).2).1 = exif files' (kw.set "crs" (some (.crs c))) := by
  rw [C70_factory]
  cases kw with
  | nil => exact absurd rfl hkw
  | cons p l => simp only [fromImages, Option.getD_some, h, Option.map_some]

/-- A reader of images in UTM zones 34 and 35, that uses the zone of the images when no CRS is given. -/
def demoExif (zone : ℕ) (kw : IoKw ℕ) : Res (Dict String ℕ × Dict String ℕ × Option ℕ) :=
  .ok ([("cam", 1)], [("a.tif", zone)], some (match (kw.get? "crs").join with | some (.crs c) => c | _ => 32600 + zone))

/-- Images in zone 35 read with the same keyword arguments as images in zone 34 get the CRS of zone 34. -/
theorem C70_zones_fails :
    let kw : IoKw ℕ := [("lla_crs", some (.crs 4326))]
    (fromImages demo demoExif 35 (some kw)).1 = .ok ([("cam", 1)], [("a.tif", 35)], some 32635) ∧
    (fromImages demo demoExif 35 (fromImages demo demoExif 34 (some kw)).2).1 =
      .ok ([("cam", 1)], [("a.tif", 35)], some 32634) := by decide +kernel

end Verif.Factory
