import Verif.Files.Names
import Verif.Readers.Csv

/-!
# C98: the `.prj` file of a CSV file

"The CRS of x, y, z world coordinate positions can be supplied in a sidecar .prj file (i.e. a text file [...] having the
same path as the CSV file, but a .prj extension)" (docs/file_formats/csv.rst:60).

Text is a list of characters, as in `Verif.Files.Names`.
-/

set_option autoImplicit false

namespace Verif.Readers.PrjFile

open Verif.Files.Names (Text afterDot)

/-! ## Model -/

/-- `s[: s.rfind('.')]`: `rfind` is -1 when there is no dot, and then the slice leaves out the last character. -/
def uptoDot (s : Text) : Text :=
  match afterDot s with
  | some k => s.take (s.length - (k + 1))
  | none => s.dropLast

/-- orthority/param_io.py:1085. -/
def prjPath (path : Text) : Text := uptoDot path ++ ".prj".toList

/-- orthority/param_io.py:976-981 and 1083-1103: what `CsvReader` finds as its `.prj` file.  `path` is the path of the
`OpenFile`, if the reader is not made with a file object; `disk` is what there is in the file system. -/
def findPrj {C : Type} (disk : Text → Prj C) (path : Option Text) : Prj C :=
  match path with
  | some p => disk (prjPath p)
  | none => .unknown

/-! ## Specification -/

/-- `prj` is the path `path` with the extension `.prj`: what follows the last dot of the last part of the path is
replaced, or, if the last part has no dot, the extension is added. -/
def Sidecar (path prj : Text) : Prop :=
  ∃ dir stem : Text, (dir = [] ∨ ∃ d, dir = d ++ ['/']) ∧ '/' ∉ stem ∧ stem ≠ [] ∧ prj = dir ++ stem ++ ".prj".toList ∧
    ((∃ ext, '/' ∉ ext ∧ '.' ∉ ext ∧ path = dir ++ stem ++ '.' :: ext) ∨ '.' ∉ stem ∧ path = dir ++ stem)

/-! ## Proofs -/

theorem afterDot_append (a ext : Text) (h : '.' ∉ ext) : afterDot (a ++ '.' :: ext) = some ext.length := by
  unfold afterDot
  rw [List.reverse_append, List.reverse_cons, List.append_assoc, List.findIdx?_append]
  have h1 : ext.reverse.findIdx? (· = '.') = none := by
    rw [List.findIdx?_eq_none_iff]
    intro c hc
    have : c ≠ '.' := fun e => h (by simpa [e] using hc)
    simpa using this
  rw [h1]
  simp [List.findIdx?_cons]

theorem afterDot_none (a : Text) (h : '.' ∉ a) : afterDot a = none := by
  unfold afterDot
  rw [List.findIdx?_eq_none_iff]
  intro c hc
  have : c ≠ '.' := fun e => h (by simpa [e] using hc)
  simpa using this

theorem uptoDot_append (a ext : Text) (h : '.' ∉ ext) : uptoDot (a ++ '.' :: ext) = a := by
  unfold uptoDot
  rw [afterDot_append a ext h]
  simp

/-! ## Theorems -/

/-- C98, in part: the `.prj` file of a CSV file whose name has an extension is the file with the same path and the
extension `.prj`; with what is in it, a file of x, y, z positions that is read without a user CRS has the CRS of the
`.prj` file, and it is an error if that is no projected CRS.  Missing: files without an extension (`C98_bare_fails`). -/
theorem C98_extension_partial {C : Type} (disk : Text → Prj C) (dir stem ext : Text) (he : '.' ∉ ext) (norm : String → String)
    (user header : Option (List String)) (utm : Res C) (fields : List String) (fmt : CsvFormat)
    (hf : parseFile norm user header = .ok (fields, fmt)) (hx : fmt = .xyzOpk ∨ fmt = .xyzRpy) (c : C) :
    let r := csvInit norm user header none (findPrj disk (some (dir ++ stem ++ '.' :: ext))) utm
    (disk (dir ++ stem ++ ".prj".toList) = .crs c true → r = .ok (fields, fmt, some c)) ∧
    (disk (dir ++ stem ++ ".prj".toList) = .crs c false → r = .error .paramError) ∧
    (disk (dir ++ stem ++ ".prj".toList) = .bad → r = .error .paramError) ∧
    (disk (dir ++ stem ++ ".prj".toList) = .missing → r =
      if fmt = .xyzOpk then .ok (fields, fmt, none) else .error .crsMissingError) := by
  have hp : findPrj disk (some (dir ++ stem ++ '.' :: ext)) = disk (dir ++ stem ++ ".prj".toList) := by
    simp only [findPrj, prjPath, uptoDot_append _ ext he]
  simp only [hp, csvInit, hf, csvCrs]
  refine ⟨fun h => ?_, fun h => ?_, fun h => ?_, fun h => ?_⟩ <;> rw [h] <;> rcases hx with rfl | rfl <;> rfl

/-- C98, in part: the file that is looked for is the sidecar, if the name has an extension.
Missing: names without one (`C98_bare_fails`). -/
theorem C98_path_partial (path prj : Text) (h : Sidecar path prj)
    (hd : ∃ a ext : Text, '/' ∉ ext ∧ path = a ++ '.' :: ext) : prjPath path = prj := by
  obtain ⟨dir, stem, hdir, hs, hne, rfl, ⟨ext, -, hx, rfl⟩ | ⟨hn, rfl⟩⟩ := h
  · simp only [prjPath, uptoDot_append _ ext hx]
  · exfalso
    obtain ⟨a, ext, hex, he⟩ := hd
    -- the dot would be in the directory, and a slash follows it
    rcases List.append_eq_append_iff.mp he with ⟨b, h1, h2⟩ | ⟨b, h1, h2⟩
    · exact hn (h2 ▸ by simp)
    · cases b with
      | nil => exact hn (by simp at h2; rw [← h2]; simp)
      | cons q b =>
        simp only [List.cons_append, List.cons.injEq] at h2
        rcases hdir with rfl | ⟨d, rfl⟩
        · simp at h1
        · have hlast : (a ++ q :: b).getLast? = some '/' := by rw [← h1]; simp
          rw [List.getLast?_append_of_ne_nil _ (by simp)] at hlast
          cases b with
          | nil =>
            simp at hlast
            rw [hlast] at h2
            exact absurd h2.1 (by decide)
          | cons q' b' =>
            have : '/' ∈ (q' :: b') := by
              have := List.mem_of_getLast? (l := q' :: b') (a := '/') (by simpa [List.getLast?_cons_cons] using hlast)
              exact this
            exact hex (h2.2 ▸ List.mem_append_left _ this)

/-- C98 fails: the path of a CSV file without a dot loses its last character. -/
theorem C98_bare_fails (s : Text) (c : Char) (hs : '.' ∉ s) (hc : c ≠ '.') (hsl : c ≠ '/') (hns : '/' ∉ s) :
    Sidecar (s ++ [c]) (s ++ [c] ++ ".prj".toList) ∧ prjPath (s ++ [c]) = s ++ ".prj".toList ∧
      prjPath (s ++ [c]) ≠ s ++ [c] ++ ".prj".toList := by
  have hd : '.' ∉ s ++ [c] := by simpa [hs] using Ne.symm hc
  have hp : prjPath (s ++ [c]) = s ++ ".prj".toList := by
    simp only [prjPath, uptoDot, afterDot_none _ hd, List.dropLast_concat]
  refine ⟨⟨[], s ++ [c], .inl rfl, by simpa [hns] using Ne.symm hsl, by simp, rfl, .inr ⟨hd, rfl⟩⟩, hp, fun h => ?_⟩
  have := congrArg List.length (hp.symm.trans h)
  simp at this

/-- C98 fails: with a dot in a directory, the `.prj` file of a CSV file without an extension is looked for next to that
directory.  A file of that name that belongs to other data gives the CRS. -/
theorem C98_directory_fails {C : Type} (disk : Text → Prj C) (dir ext file : Text) (he : '.' ∉ ext) (hf : '.' ∉ file) (c c' : C)
    (norm : String → String) (user header : Option (List String)) (utm : Res C) (fields : List String)
    (hp : parseFile norm user header = .ok (fields, .xyzOpk))
    (_own : disk (dir ++ '.' :: ext ++ '/' :: file ++ ".prj".toList) = .crs c true) (h : disk (dir ++ ".prj".toList) = .crs c' true) :
    csvInit norm user header none (findPrj disk (some (dir ++ '.' :: ext ++ '/' :: file))) utm = .ok (fields, .xyzOpk, some c') := by
  have : prjPath (dir ++ '.' :: ext ++ '/' :: file) = dir ++ ".prj".toList := by
    have e : dir ++ '.' :: ext ++ '/' :: file = dir ++ '.' :: (ext ++ '/' :: file) := by simp
    rw [prjPath, e, uptoDot_append]
    simp [he, hf]
  simp only [findPrj, this, csvInit, hp, csvCrs, h]
  rfl

/-! ## Examples -/

example : prjPath "data/v1.2/poses.csv".toList = "data/v1.2/poses.prj".toList := by decide
example : prjPath "data/poses".toList = "data/pose.prj".toList := by decide
example : prjPath "data.v1/poses".toList = "data.prj".toList := by decide

/-- The hypotheses of `C98_path_partial` are met. -/
example : Sidecar "a/b.csv".toList "a/b.prj".toList ∧ ∃ a ext : Text, '/' ∉ ext ∧ "a/b.csv".toList = a ++ '.' :: ext :=
  ⟨⟨"a/".toList, "b".toList, .inr ⟨"a".toList, by decide⟩, by decide, by decide, by decide,
    .inl ⟨"csv".toList, by decide, by decide, by decide⟩⟩, "a/b".toList, "csv".toList, by decide, by decide⟩

/-- A file with the columns of the `xyz_opk` format, and two `.prj` files on the disk. -/
example : ∃ fields, parseFile id none (some ["filename", "x", "y", "z", "omega", "phi", "kappa"]) = .ok (fields, .xyzOpk) :=
  ⟨["filename", "x", "y", "z", "omega", "phi", "kappa"], by decide +kernel⟩

end Verif.Readers.PrjFile
