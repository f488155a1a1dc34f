import Verif.Readers.Csv
import Mathlib.Algebra.BigOperators.Group.Finset.Basic
import Mathlib.Algebra.Order.BigOperators.Group.Finset
import Mathlib.Data.Int.Cast.Lemmas
import Mathlib.Order.Interval.Finset.Nat
import Mathlib.Tactic.Linarith
import Mathlib.Tactic.Push

/-!
# C122: the header of a CSV exterior parameter file, and the images that are read from it

`csv.Sniffer.has_header` and `csv.DictReader` are modelled after CPython 3.11 (Lib/csv.py).
-/

set_option autoImplicit false

namespace Verif.Readers

/-! ## Model -/

/-- The type that `csv.Sniffer.has_header` has for a column: `None`, `complex`, the length of its texts, or deleted. -/
inductive Col
  | unset
  | num
  | len (n : ℕ)
  | gone
  deriving DecidableEq

/-- `thisType` of a value in `csv.Sniffer.has_header`; `isNum s` is whether `complex(s)` does not raise. -/
def valType (isNum : String → Bool) (s : String) : Col := if isNum s then .num else .len s.length

/-- The update of `columnTypes[col]` in `csv.Sniffer.has_header`. -/
def Col.next (c v : Col) : Col :=
  match c with
  | .gone => .gone
  | .unset => v
  | c => if c = v then c else .gone

/-- `columnTypes[j]` in `csv.Sniffer.has_header` after `rows`. -/
def colType (isNum : String → Bool) (rows : List (List String)) (j : ℕ) : Col :=
  rows.foldl (fun c r => match r[j]? with
    | some s => c.next (valType isNum s)
    | none => c) .unset

/-- The vote of a column in `csv.Sniffer.has_header`, for the value `s` of the first row; `None(s)` raises `TypeError`. -/
def vote (isNum : String → Bool) (s : String) : Col → ℤ
  | .gone => 0
  | .unset => 1
  | .num => if isNum s then -1 else 1
  | .len n => if s.length ≠ n then 1 else -1

/-- `sniffer.has_header(sample)`, orthority/param_io.py:1050, on the rows of the sample as `has_header` splits it.  A sample
that cannot be split is not modelled. -/
def hasHeader (isNum : String → Bool) : List (List String) → Res Bool
  | [] => .error .stopIteration
  | h :: rows =>
    let checked := (rows.take 21).filter fun r => r.length = h.length
    .ok (decide (0 < ∑ j ∈ Finset.range h.length, vote isNum (h[j]?.getD "") (colType isNum checked j)))

/-- A CSV file: its rows as `csv.reader` gives them with the dialect of the reader, where blank lines are `[]`, and the rows of
the sample as `has_header` splits it, with the dialect that it finds. -/
structure CsvText where
  rows : List (List String)
  sample : List (List String)

/-- The rows that `csv.DictReader` gives, without the first if there is a header: orthority/param_io.py:1145-1151. -/
def csvRows (has : Bool) (rows : List (List String)) : Res (List (List String)) :=
  let rows := rows.filter fun r => r ≠ []
  if has then match rows with
    | [] => .error .stopIteration
    | _ :: rows => .ok rows
  else .ok rows

variable {K : Type}

/-- `CsvReader(file, fieldnames=user).read_ext_param()`, orthority/param_io.py:985-994, 1030-1059 and 1143-1157.  The CRS is
not modelled here (`csvInit`).  The first row of the sample with the dialect of the reader (1053) is taken to be that of the
file. -/
def csvExt (isNum : String → Bool) (norm name : String → String) (parse : String → Option K) (cv : Conv K) (radians : Bool)
    (user : Option (List String)) (f : CsvText) : Res (Dict String (CsvExt K)) := do
  let has ← hasHeader isNum f.sample
  let (fields, fmt) ← parseFile norm user (if has then f.rows.head? else none)
  let rows ← csvRows has f.rows
  readCsv name parse cv fmt radians (rows.map (mkRow fields)) []

/-! ## Specification -/

/-- The rows of the file are a header, if it has one, and the rows of the images; more than half of the columns `J` have
numbers for all images, and names that are not numbers in the header.  A file without header has at least two rows of the
same length at the start. -/
structure Plain (isNum : String → Bool) (f : CsvText) (hdr : Option (List String)) (data : List (List String))
    (first : List String) (J : Finset ℕ) : Prop where
  rows : f.rows = hdr.toList ++ data
  sample : f.sample.take 22 = f.rows.take 22
  head : f.rows.head? = some first
  cols : ∀ j ∈ J, j < first.length
  most : first.length < 2 * J.card
  nums : ∀ r ∈ data, ∀ j ∈ J, ∀ s, r[j]? = some s → isNum s = true
  names : ∀ h, hdr = some h → ∀ j ∈ J, ∀ s, h[j]? = some s → isNum s = false
  two : hdr = none → ∃ r ∈ data.tail.take 21, r.length = first.length

/-! ## Proofs -/

theorem colType_num (isNum : String → Bool) (rows : List (List String)) (j : ℕ)
    (h : ∀ r ∈ rows, ∃ s, r[j]? = some s ∧ isNum s = true) (hne : rows ≠ []) : colType isNum rows j = .num := by
  have key : ∀ (rows : List (List String)), (∀ r ∈ rows, ∃ s, r[j]? = some s ∧ isNum s = true) →
      rows.foldl (fun c r => match r[j]? with
        | some s => c.next (valType isNum s)
        | none => c) Col.num = .num := by
    intro rows
    induction rows with
    | nil => intro _; rfl
    | cons r rows ih =>
      intro h
      obtain ⟨s, h1, h2⟩ := h r (by simp)
      simp only [List.foldl_cons, h1, valType, h2, if_true, Col.next]
      exact ih fun r' hr => h r' (by simp [hr])
  cases rows with
  | nil => exact absurd rfl hne
  | cons r rows =>
    obtain ⟨s, h1, h2⟩ := h r (by simp)
    simp only [colType, List.foldl_cons, h1, valType, h2, if_true, Col.next]
    exact key rows fun r' hr => h r' (by simp [hr])

theorem vote_le (isNum : String → Bool) (s : String) (c : Col) : -1 ≤ vote isNum s c ∧ vote isNum s c ≤ 1 := by
  cases c <;> simp only [vote] <;> (try split_ifs) <;> simp

theorem sum_pos_of (n : ℕ) (J : Finset ℕ) (hJ : ∀ j ∈ J, j < n) (hm : n < 2 * J.card) (v : ℕ → ℤ) (h1 : ∀ j ∈ J, v j = 1)
    (h2 : ∀ j, -1 ≤ v j) : 0 < ∑ j ∈ Finset.range n, v j := by
  have hs : J ⊆ Finset.range n := fun j hj => Finset.mem_range.2 (hJ j hj)
  rw [← Finset.sum_sdiff hs]
  have e1 : ∑ j ∈ J, v j = J.card := by rw [Finset.sum_congr rfl h1]; simp
  have e2 : -((Finset.range n \ J).card : ℤ) ≤ ∑ j ∈ Finset.range n \ J, v j := by
    have := Finset.card_nsmul_le_sum (Finset.range n \ J) v (-1) fun j _ => h2 j
    simpa using this
  have e3 : (Finset.range n \ J).card = n - J.card := by
    rw [Finset.card_sdiff_of_subset hs, Finset.card_range]
  have e4 : J.card ≤ n := by simpa using Finset.card_le_card hs
  rw [e1]
  rw [e3] at e2
  omega

/-- C122: the first row is taken as a header exactly when it is one. -/
theorem C122_header_partial (isNum : String → Bool) (f : CsvText) (hdr : Option (List String)) (data : List (List String))
    (first : List String) (J : Finset ℕ) (h : Plain isNum f hdr data first J) : hasHeader isNum f.sample = .ok hdr.isSome := by
  obtain ⟨tl, hr⟩ : ∃ tl, f.rows = first :: tl := by
    have := h.head
    cases hr : f.rows with
    | nil => rw [hr] at this; simp at this
    | cons a l => rw [hr] at this; simp at this; exact ⟨l, by rw [this]⟩
  obtain ⟨st, hs, hst⟩ : ∃ st, f.sample = first :: st ∧ st.take 21 = tl.take 21 := by
    have := h.sample
    rw [hr, List.take_succ_cons] at this
    cases hs : f.sample with
    | nil => rw [hs] at this; simp at this
    | cons a l =>
      rw [hs, List.take_succ_cons] at this
      injection this with h1 h2
      exact ⟨l, by rw [h1], h2⟩
  rw [hs]
  simp only [hasHeader, hst]
  congr 1
  set checked := (tl.take 21).filter fun r => decide (r.length = first.length) with hc
  have hlen : ∀ r ∈ checked, r.length = first.length := by
    intro r hr'
    rw [hc, List.mem_filter] at hr'
    simpa using hr'.2
  have hin : ∀ r ∈ checked, r ∈ tl := by
    intro r hr'
    rw [hc, List.mem_filter] at hr'
    exact List.mem_of_mem_take hr'.1
  have hnum : (∀ r ∈ tl, r ∈ data) → checked ≠ [] → ∀ j ∈ J, colType isNum checked j = .num := by
    intro hd hne j hj
    apply colType_num _ _ _ _ hne
    intro r hr'
    have hjr : j < r.length := by rw [hlen r hr']; exact h.cols j hj
    exact ⟨r[j], by simp, h.nums r (hd r (hin r hr')) j hj _ (by simp)⟩
  have hrows := h.rows
  rw [hr] at hrows
  cases hdr with
  | some hh =>
    have e : first = hh ∧ tl = data := by simpa using hrows
    obtain ⟨rfl, rfl⟩ := e
    simp only [Option.isSome_some, decide_eq_true_eq]
    apply sum_pos_of _ J h.cols h.most _ _ fun j => (vote_le isNum _ _).1
    intro j hj
    have hjf := h.cols j hj
    have hn := h.names first rfl j hj first[j] (by simp)
    by_cases hne : checked = []
    · rw [hne]; simp [colType, vote]
    · rw [hnum (fun r hr' => hr') hne j hj]
      simp [vote, hn, hjf]
  | none =>
    have e : data = first :: tl := by simpa using hrows.symm
    subst e
    simp only [Option.isSome_none, decide_eq_false_iff_not, not_lt]
    obtain ⟨r, hr1, hr2⟩ := h.two rfl
    have hne : checked ≠ [] := by
      apply List.ne_nil_of_mem (a := r)
      rw [hc, List.mem_filter]
      exact ⟨hr1, by simpa using hr2⟩
    have := sum_pos_of first.length J h.cols h.most
      (fun j => -vote isNum (first[j]?.getD "") (colType isNum checked j)) (by
        intro j hj
        have hjf := h.cols j hj
        have hn := h.nums first (by simp) j hj first[j] (by simp)
        simp only [hnum (fun r hr' => by simp [hr']) hne j hj]
        simp [vote, hn, hjf]) (by
        intro j
        have := (vote_le isNum (first[j]?.getD "") (colType isNum checked j)).2
        linarith)
    rw [Finset.sum_neg_distrib] at this
    linarith

theorem first_ne {isNum : String → Bool} {f : CsvText} {hdr : Option (List String)} {data : List (List String)}
    {first : List String} {J : Finset ℕ} (h : Plain isNum f hdr data first J) : first ≠ [] := by
  rintro rfl
  have h1 := h.most
  have h2 : J = ∅ := Finset.eq_empty_of_forall_notMem fun j hj => by simpa using h.cols j hj
  simp [h2] at h1

/-- C122: with field names of the user, or else of the header, or else the legacy ones, the rows that are read are all rows of
images, blank lines left out. -/
theorem C122_rows_partial (isNum : String → Bool) (norm name : String → String) (parse : String → Option K) (cv : Conv K)
    (radians : Bool) (user : Option (List String)) (f : CsvText) (hdr : Option (List String)) (data : List (List String))
    (first : List String) (J : Finset ℕ) (h : Plain isNum f hdr data first J) (fmt : CsvFormat)
    (hf : parseFieldnames ((fileFields user hdr).map norm) = .ok fmt) :
    csvExt isNum norm name parse cv radians user f =
      readCsv name parse cv fmt radians
        ((data.filter fun r => r ≠ []).map (mkRow ((fileFields user hdr).map norm))) [] := by
  have hh := C122_header_partial isNum f hdr data first J h
  have hhead : (if hdr.isSome then f.rows.head? else none) = hdr := by
    rw [h.rows]
    cases hdr <;> simp
  have hrows : csvRows hdr.isSome f.rows = .ok (data.filter fun r => r ≠ []) := by
    have hne := first_ne h
    have hhd := h.head
    unfold csvRows
    rw [h.rows]
    rw [h.rows] at hhd
    cases hdr with
    | none => simp
    | some a =>
      have : a = first := by simpa using hhd
      subst this
      simp [hne]
  unfold csvExt
  rw [hh]
  simp only [Res.ok_bind, hhead, parseFile, hf, hrows]

/-- C122: when the file is read and the names of the images are different, there is one entry for each row of an image, in
order, made from the values of that row under the field names.  Missing: files without header that have one row
(`C122_single_row_fails`), header rows after blank lines (`C122_blank_line_fails`) and files with many columns of texts
(`C122_texts_fails`). -/
theorem C122_images_partial (isNum : String → Bool) (norm name : String → String) (parse : String → Option K) (cv : Conv K)
    (radians : Bool) (user : Option (List String)) (f : CsvText) (hdr : Option (List String)) (data : List (List String))
    (first : List String) (J : Finset ℕ) (h : Plain isNum f hdr data first J) (fields : List String)
    (hfields : fields = (fileFields user hdr).map norm) (d : Dict String (CsvExt K))
    (hd : csvExt isNum norm name parse cv radians user f = .ok d)
    (hnames : ((data.filter fun r => r ≠ []).map fun r => (Dict.get? (mkRow fields r) "filename").map (Option.map name)).Nodup) :
    ∃ fmt, parseFieldnames fields = .ok fmt ∧
      List.Forall₂ (fun row o => ∃ s, Dict.get? (mkRow fields row) "filename" = some (some s) ∧ o.1 = name s ∧
        readRow parse cv fmt radians (mkRow fields row) = .ok (o.2.xyz, o.2.opk) ∧
        (∀ c, o.2.camera = some c ↔ Dict.get? (mkRow fields row) "camera" = some (some c)))
        (data.filter fun r => r ≠ []) d := by
  subst hfields
  cases hf : parseFieldnames ((fileFields user hdr).map norm) with
  | error e =>
    exfalso
    have hh := C122_header_partial isNum f hdr data first J h
    have hhead : (if hdr.isSome then f.rows.head? else none) = hdr := by
      rw [h.rows]
      cases hdr <;> simp
    unfold csvExt at hd
    rw [hh] at hd
    simp only [Res.ok_bind, hhead, parseFile, hf] at hd
    cases hd
  | ok fmt =>
    refine ⟨fmt, rfl, ?_⟩
    rw [C122_rows_partial isNum norm name parse cv radians user f hdr data first J h fmt hf] at hd
    have := C25_read name parse cv fmt radians _ d hd (by
      rw [List.map_map]
      exact hnames)
    exact List.forall₂_map_left_iff.1 this

/-- C122: the only row of a file without a header is taken as its header.  With field names of the user the image is left out
without an error, and without them the legacy format is refused. -/
theorem C122_single_row_fails (isNum : String → Bool) (norm name : String → String) (parse : String → Option K) (cv : Conv K)
    (radians : Bool) (row : List String) (hrow : row ≠ []) :
    (∀ u us fmt, parseFieldnames ((u :: us).map norm) = .ok fmt →
      csvExt isNum norm name parse cv radians (some (u :: us)) ⟨[row], [row]⟩ = .ok []) ∧
    ("filename" ∉ row.map norm →
      csvExt isNum norm name parse cv radians none ⟨[row], [row]⟩ = .error .paramError) := by
  have hh : hasHeader isNum [row] = .ok true := by
    have : 0 < row.length := List.length_pos_iff.2 hrow
    simp [hasHeader, colType, vote, this]
  constructor
  · intro u us fmt hf
    simp only [csvExt, hh, Res.ok_bind, parseFile, fileFields, hf]
    simp [csvRows, hrow, Res.ok_bind, readCsv]
  · intro hn
    have hf : parseFieldnames (row.map norm) = .error .paramError := by
      simp only [parseFieldnames, List.contains_eq_mem, hn, decide_false, Bool.not_false, if_true]
    simp only [csvExt, hh, Res.ok_bind, parseFile, fileFields, List.head?_cons, if_true, hf]
    rfl

/-- C122: a blank line before the header hides it: it is read as the row of an image, which raises `ValueError`. -/
theorem C122_blank_line_fails (isNum : String → Bool) (norm name : String → String) (parse : String → Option K) (cv : Conv K)
    (radians : Bool) (hnorm : legacyFields.map norm = legacyFields) (hx : parse "x" = none) (data sample : List (List String)) :
    csvExt isNum norm name parse cv radians none
      ⟨[] :: ["filename", "x", "y", "z", "omega", "phi", "kappa"] :: data, [] :: sample⟩ = .error .valueError := by
  have hh : hasHeader isNum ([] :: sample) = .ok false := by simp [hasHeader]
  have hf : parseFieldnames legacyFields = .ok .xyzOpk := by decide +kernel
  have hrow : Dict.get? (mkRow legacyFields ["filename", "x", "y", "z", "omega", "phi", "kappa"]) "filename" =
      some (some "filename") := by decide +kernel
  have hm : mkRow legacyFields ["filename", "x", "y", "z", "omega", "phi", "kappa"] =
      ("filename", some "filename") :: ("x", some "x") ::
        [("y", some "y"), ("z", some "z"), ("omega", some "omega"), ("phi", some "phi"), ("kappa", some "kappa")] := by
    decide +kernel
  have hr : readRow parse cv .xyzOpk radians (mkRow legacyFields ["filename", "x", "y", "z", "omega", "phi", "kappa"]) =
      .error .valueError := by
    rw [hm]
    simp [readRow, convertRow, convertCell, floatFields, hx]
  simp only [csvExt, hh, Res.ok_bind, parseFile, fileFields, Bool.false_eq_true, if_false, hnorm, hf, csvRows]
  simp only [List.filter_cons, ne_eq, not_true_eq_false, decide_false, Bool.false_eq_true, if_false, List.cons_ne_nil,
    not_false_eq_true, decide_true, if_true, List.map_cons]
  rw [readCsv, hrow]
  simp only [hr]

/-- The header of `C122_texts_fails`: seven fields of one letter besides those of the format. -/
def textsHeader : List String := legacyFields ++ ["a", "b", "c", "d", "e", "f", "g"]

/-- C122: a header is not found when there are as many columns of texts as long as their names as there are other columns: it is
read as the row of an image, which raises `ValueError`. -/
theorem C122_texts_fails (isNum : String → Bool) (norm name : String → String) (parse : String → Option K) (cv : Conv K)
    (radians : Bool) (hnorm : legacyFields.map norm = legacyFields) (hx : parse "x" = none) (h1 : isNum "1" = true)
    (hy : isNum "y" = false) (ha : isNum "i" = false) (hl : ∀ s ∈ textsHeader, isNum s = false) :
    csvExt isNum norm name parse cv radians none
      ⟨[textsHeader, ["i", "1", "1", "1", "1", "1", "1", "y", "y", "y", "y", "y", "y", "y"]],
       [textsHeader, ["i", "1", "1", "1", "1", "1", "1", "y", "y", "y", "y", "y", "y", "y"]]⟩ = .error .valueError := by
  have hh : hasHeader isNum [textsHeader, ["i", "1", "1", "1", "1", "1", "1", "y", "y", "y", "y", "y", "y", "y"]] =
      .ok false := by
    simp [textsHeader, legacyFields] at hl
    simp [hasHeader, textsHeader, legacyFields, Finset.sum_range_succ, colType, Col.next, valType, vote, h1, hy, ha, hl]
    decide +kernel
  have hf : parseFieldnames legacyFields = .ok .xyzOpk := by decide +kernel
  have hrow : Dict.get? (mkRow legacyFields textsHeader) "filename" = some (some "filename") := by decide +kernel
  have hm : mkRow legacyFields textsHeader =
      ("filename", some "filename") :: ("x", some "x") ::
        [("y", some "y"), ("z", some "z"), ("omega", some "omega"), ("phi", some "phi"), ("kappa", some "kappa")] := by
    decide +kernel
  have hr : readRow parse cv .xyzOpk radians (mkRow legacyFields textsHeader) = .error .valueError := by
    rw [hm]
    simp [readRow, convertRow, convertCell, floatFields, hx]
  have hne : textsHeader ≠ [] := by decide +kernel
  simp only [csvExt, hh, Res.ok_bind, parseFile, fileFields, Bool.false_eq_true, if_false, hnorm, hf, csvRows]
  simp only [List.filter_cons, ne_eq, hne, not_false_eq_true, decide_true, if_true, List.map_cons]
  rw [readCsv, hrow]
  simp only [hr]

/-! ## Examples -/

/-- Digits are the numbers of the examples. -/
def exNum (s : String) : Bool := s ∈ ["1", "2", "3"]

def exHead : List String := ["filename", "x", "y", "z", "omega", "phi", "kappa", "camera"]

def exImages : List (List String) :=
  [["a", "1", "2", "3", "1", "2", "3", "c"], [], ["b", "3", "2", "1", "1", "1", "1", "d"]]

theorem ex_plain : Plain exNum ⟨exHead :: exImages, exHead :: exImages⟩ (some exHead) exImages exHead (Finset.Icc 1 6) := by
  refine ⟨rfl, rfl, rfl, by decide +kernel, by decide +kernel, ?_, ?_, by simp⟩
  · intro r hr j hj s hs
    have : ∀ r ∈ exImages, ∀ j ∈ Finset.Icc 1 6, (r[j]?.all exNum) = true := by decide +kernel
    have := this r hr j hj
    rw [hs] at this
    simpa using this
  · intro h hh j hj s hs
    cases hh
    have : ∀ j ∈ Finset.Icc 1 6, (exHead[j]?.all fun s => !exNum s) = true := by decide +kernel
    have := this j hj
    rw [hs] at this
    simpa using this

/-- `C122_rows_partial` for a file with a header and a blank line. -/
example (parse : String → Option K) (cv : Conv K) (x y z : K) (h1 : parse "1" = some x) (h2 : parse "2" = some y)
    (h3 : parse "3" = some z) :
    csvExt exNum id id parse cv true none ⟨exHead :: exImages, exHead :: exImages⟩ =
      .ok [("a", ⟨(x, y, z), (x, y, z), some "c"⟩), ("b", ⟨(z, y, x), (x, x, x), some "d"⟩)] := by
  rw [C122_rows_partial exNum id id parse cv true none _ _ _ _ _ ex_plain .xyzOpk (by decide +kernel)]
  simp [exImages, exHead, fileFields, readCsv, readRow, rowCamera, mkRow, Dict.ofItems, Dict.update, Dict.set, Dict.get?,
    convertRow, convertCell, floatFields, convert, CsvFormat.isXyz, CsvFormat.isOpk, cell3, cell, h1, h2, h3]

/-- A file of two rows without header meets the specification. -/
example : Plain exNum ⟨exImages, exImages⟩ none exImages ["a", "1", "2", "3", "1", "2", "3", "c"] (Finset.Icc 1 6) := by
  refine ⟨rfl, rfl, rfl, by decide +kernel, by decide +kernel, ex_plain.nums, by simp, ?_⟩
  intro _
  exact ⟨["b", "3", "2", "1", "1", "1", "1", "d"], by decide +kernel, by decide +kernel⟩

/-- `C122_texts_fails` with these numbers. -/
example (cv : Conv ℤ) (name : String → String) :
    csvExt exNum id name (fun s => if s = "1" then some 1 else none) cv true none
      ⟨[textsHeader, ["i", "1", "1", "1", "1", "1", "1", "y", "y", "y", "y", "y", "y", "y"]],
       [textsHeader, ["i", "1", "1", "1", "1", "1", "1", "y", "y", "y", "y", "y", "y", "y"]]⟩ = .error .valueError :=
  C122_texts_fails exNum id name _ cv true (by simp) (by simp) (by decide +kernel) (by decide +kernel) (by decide +kernel)
    (by decide +kernel)

/-- `C122_single_row_fails`: an image that is left out. -/
example (cv : Conv ℤ) (parse : String → Option ℤ) :
    csvExt exNum id id parse cv true (some legacyFields) ⟨[["a", "1", "1", "1", "1", "1", "1"]], [["a", "1", "1", "1", "1", "1", "1"]]⟩ =
      .ok [] :=
  (C122_single_row_fails exNum id id parse cv true _ (by simp)).1 _ _ .xyzOpk (by decide +kernel)

end Verif.Readers
