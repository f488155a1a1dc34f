import Verif.Cli.Errors
import Verif.Cli.Inputs
import Verif.Readers.Prj

/-!
# C120: the images of an OpenDroneMap dataset

`oty odm` finds its source images itself: they are the image files in the `images` directory of the dataset.  The cameras are
those of the images that OpenDroneMap could reconstruct.

Text is a list of characters, as in `Verif.Files.Names`.
-/

set_option autoImplicit false

namespace Verif.Cli.Dataset

open Verif.Files.Names (Text afterDot pathName pathStem)
open Verif.Cli.Inputs (joinPath)
open Verif.Factory (byName)

/-! ## Model -/

/-- `sf[sf.rfind('.') :]`: `rfind` is -1 when there is no dot, and then the slice is the last character. -/
def fromDot (s : Text) : Text :=
  match afterDot s with
  | some k => s.drop (s.length - (k + 1))
  | none => s.drop (s.length - 1)

/-- orthority/cli.py:841. -/
def srcExts : List Text := [".jpg".toList, ".jpeg".toList, ".tif".toList, ".tiff".toList]

/-- The test of orthority/cli.py:844. -/
def isSrc (path : Text) : Bool := decide (lower (fromDot path) ∈ srcExts)

/-- A dataset, and what the file system and the readers give for it: `find` is `fs.find`, the paths of the files in a directory
and below it; `shots` are the exterior parameters in `reconstruction.json` by image name, each with the result of
`FrameCameras.get` once it has them (orthority/factory.py:214-234); `opened` and `crs` are those of the image files. -/
structure Data (C : Type) where
  dir : Text
  find : Text → List Text
  shots : Dict String (Res Unit)
  opened : Text → Res Unit
  crs : Text → Option C

variable {C : Type}

/-- orthority/cli.py:840-845: the source files of `oty odm`. -/
def Data.sources (d : Data C) : List Text := (d.find (joinPath d.dir "images/".toList)).filter isSrc

/-- orthority/factory.py:205-212, then the result for the exterior parameters that are found. -/
def Data.get (d : Data C) (path : Text) : Res Unit :=
  match byName d.shots (String.ofList (pathName path)) (String.ofList (pathStem path)) with
  | some r => r
  | none => .error .paramError

/-- A source file in the loop of orthority/cli.py:341-372. -/
def Data.src (d : Data C) (path : Text) : Src C Text := ⟨path, String.ofList (pathStem path), d.crs path, d.get path, d.opened path⟩

/-- orthority/cli.py:814-890, `oty odm` without `--export-params`; the arguments are those of `Verif.Cli.odmCmd`. -/
def run (d : Data C) (proc : Text → C → Proc) (outDir : String) (overwrite : Bool) (option : Option C) (dsm : Res (ℕ × Option C))
    (cams : Option C → Res (Option C)) (fs : Fs C Text) : Fs C Text × Res Unit :=
  odmCmd ⟨proc, outDir, overwrite, false, .ok (), none, 1, d.sources.map d.src⟩ option dsm cams fs

/-! ## Specification -/

/-- The name of a JPEG or TIFF image: it ends in a dot and one of the extensions, in any case. -/
def ImageName (path : Text) : Prop :=
  ∃ base ext : Text, path = base ++ '.' :: ext ∧ lower ext ∈ ["jpg".toList, "jpeg".toList, "tif".toList, "tiff".toList]

/-- An image file in the `images` directory of the dataset, or below it. -/
def Image (d : Data C) (path : Text) : Prop := path ∈ d.find (joinPath d.dir "images/".toList) ∧ ImageName path

/-- The reconstruction has a shot for the image: with its file name, or its file name without the extension. -/
def HasShot (d : Data C) (path : Text) : Prop :=
  ∃ r, (String.ofList (pathName path), r) ∈ d.shots ∨ (String.ofList (pathStem path), r) ∈ d.shots

/-- There is a camera for the image: `FrameCameras.get` makes one from the shot with its file name or, when there is none, from the
shot with its file name without the extension. -/
def HasCamera (d : Data C) (path : Text) : Prop :=
  (String.ofList (pathName path), .ok ()) ∈ d.shots ∨
    (∀ r, (String.ofList (pathName path), r) ∉ d.shots) ∧ (String.ofList (pathStem path), .ok ()) ∈ d.shots

/-- The path of the ortho of an image file. -/
def orthoAt (outDir : String) (path : Text) : String := outDir ++ "/" ++ (String.ofList (pathStem path) ++ "_ORTHO.tif")

/-! ## Proofs -/

theorem fromDot_append (a ext : Text) (h : '.' ∉ ext) : fromDot (a ++ '.' :: ext) = '.' :: ext := by
  unfold fromDot
  rw [Verif.Readers.PrjFile.afterDot_append a ext h]
  have : (a ++ '.' :: ext).length - (ext.length + 1) = a.length := by simp
  simp only [this, List.drop_left]

theorem fromDot_none (a : Text) (h : '.' ∉ a) : fromDot a = a.drop (a.length - 1) := by
  unfold fromDot
  rw [Verif.Readers.PrjFile.afterDot_none a h]

theorem split_dot (s : Text) : '.' ∉ s ∨ ∃ a ext, s = a ++ '.' :: ext ∧ '.' ∉ ext := by
  induction s with
  | nil => exact Or.inl (by simp)
  | cons c s ih =>
    rcases ih with h | ⟨a, ext, rfl, h⟩
    · by_cases hc : c = '.'
      · exact Or.inr ⟨[], s, by rw [hc]; rfl, h⟩
      · exact Or.inl (by simp [h, Ne.symm hc])
    · exact Or.inr ⟨c :: a, ext, rfl, h⟩

theorem toLower_dot (c : Char) : c.toLower = '.' ↔ c = '.' := by
  constructor
  · intro h
    unfold Char.toLower at h
    split at h
    · rename_i hc
      exfalso
      have h1 := congrArg (fun c : Char => c.val.toNat) h
      have h2 : c.val.toNat ≤ 90 := by
        have := hc.2
        exact this
      have h3 : 65 ≤ c.val.toNat := by
        have := hc.1
        exact this
      have e1 : ('a'.val - 'A'.val).toNat = 32 := by decide
      have e2 : '.'.val.toNat = 46 := by decide
      simp only [UInt32.toNat_add, e1, e2] at h1
      omega
    · exact h
  · rintro rfl
    decide

theorem isSrc_iff (p : Text) : isSrc p = true ↔ ImageName p := by
  unfold isSrc ImageName
  rw [decide_eq_true_iff]
  have hd : ∀ ext : Text, '.' ∉ lower ext ↔ '.' ∉ ext := by
    intro ext
    unfold lower
    rw [List.mem_map]
    constructor
    · intro h hm; exact h ⟨'.', hm, rfl⟩
    · rintro h ⟨c, hc, e⟩
      exact h ((toLower_dot c).1 e ▸ hc)
  have hnd : ∀ e ∈ ["jpg".toList, "jpeg".toList, "tif".toList, "tiff".toList], '.' ∉ e := by decide +kernel
  have hex : ∀ e : Text, '.' :: e ∈ srcExts ↔ e ∈ ["jpg".toList, "jpeg".toList, "tif".toList, "tiff".toList] := by
    intro e
    have : srcExts = ["jpg".toList, "jpeg".toList, "tif".toList, "tiff".toList].map ('.' :: ·) := by decide +kernel
    rw [this, List.mem_map]
    constructor
    · rintro ⟨x, hx, he⟩
      rw [← (List.cons.inj he).2]; exact hx
    · intro h; exact ⟨e, h, rfl⟩
  constructor
  · intro h
    rcases split_dot p with hp | ⟨a, ext, rfl, hext⟩
    · exfalso
      rw [fromDot_none p hp] at h
      have hl : (lower (p.drop (p.length - 1))).length ≤ 1 := by
        simp only [lower, List.length_map, List.length_drop]
        omega
      have : ∀ e ∈ srcExts, 2 ≤ e.length := by decide +kernel
      have := this _ h
      omega
    · rw [fromDot_append a ext hext] at h
      exact ⟨a, ext, rfl, (hex _).1 (by simpa [lower] using h)⟩
  · rintro ⟨base, ext, rfl, h⟩
    have hext : '.' ∉ ext := (hd ext).1 (hnd _ h)
    rw [fromDot_append base ext hext]
    have := (hex (lower ext)).2 h
    simpa [lower] using this

theorem mem_sources (d : Data C) (p : Text) : p ∈ d.sources ↔ Image d p := by
  unfold Data.sources Image
  rw [List.mem_filter, isSrc_iff]

/-- C120: the source images of `oty odm` are the JPEG and TIFF files in the `images` directory of the dataset and below it, each
as often as the file system lists it and in that order. -/
theorem C120_sources (d : Data C) :
    d.sources.Sublist (d.find (joinPath d.dir "images/".toList)) ∧
    (∀ p, p ∈ d.sources ↔ Image d p) ∧
    ∀ p, Image d p → d.sources.count p = (d.find (joinPath d.dir "images/".toList)).count p := by
  refine ⟨List.filter_sublist, mem_sources d, fun p hp => ?_⟩
  unfold Data.sources
  rw [List.count_filter]
  exact (isSrc_iff p).2 hp.2

theorem get_none {d : Data C} {p : Text} (h : ¬ HasShot d p) : d.get p = .error .paramError := by
  unfold Data.get byName
  cases h1 : Dict.get? d.shots (String.ofList (pathName p)) with
  | some r => exact absurd ⟨r, Or.inl (Dict.mem_of_get? h1)⟩ h
  | none =>
    cases h2 : Dict.get? d.shots (String.ofList (pathStem p)) with
    | some r => exact absurd ⟨r, Or.inr (Dict.mem_of_get? h2)⟩ h
    | none => simp

theorem get_ok {d : Data C} {p : Text} (hd : Dict.Ok d.shots) (h : HasCamera d p) : d.get p = .ok () := by
  unfold Data.get byName
  rcases h with h | ⟨h1, h2⟩
  · rw [Dict.get?_of_mem hd h]
  · have : Dict.get? d.shots (String.ofList (pathName p)) = none := by
      cases h3 : Dict.get? d.shots (String.ofList (pathName p)) with
      | none => rfl
      | some r => exact absurd (Dict.mem_of_get? h3) (h1 r)
    rw [this, Dict.get?_of_mem hd h2]

/-- One image that can be orthorectified. -/
theorem orthoOne_done {proc : Text → C → Proc} {outDir : String} {ow : Bool} {c : C} {fs : Fs C Text} {s : Src C Text}
    (h1 : s.cam = .ok ()) (h2 : s.opened = .ok ()) (h3 : proc s.im c = .done) (h4 : ow = true ∨ fs (orthoPath outDir s.stem) = none) :
    orthoOne proc outDir ow (some c) fs s =
      ((fun q => if q = orthoPath outDir s.stem then some (.done s.im c) else fs q), .ok (some c)) := by
  have h5 : ¬ ((fs (orthoPath outDir s.stem)).isSome = true ∧ ow = false) := by
    rintro ⟨a, b⟩
    rcases h4 with h | h
    · rw [h] at b; cases b
    · rw [h] at a; cases a
  unfold orthoOne
  simp only [h1, h2, h3, Option.orElse_eq_orElse, Option.orElse_some, if_neg h5]

/-- The loop over images that can all be orthorectified, followed by any others. -/
theorem orthoLoop_done {proc : Text → C → Proc} {outDir : String} {ow : Bool} {c : C} (l rest : List (Src C Text)) (fs : Fs C Text)
    (h1 : ∀ s ∈ l, s.cam = .ok ()) (h2 : ∀ s ∈ l, s.opened = .ok ()) (h3 : ∀ s ∈ l, proc s.im c = .done)
    (h4 : ∀ s ∈ l, ow = true ∨ fs (orthoPath outDir s.stem) = none) (hn : (l.map Src.stem).Nodup) :
    ∃ fs1, orthoLoop proc outDir ow (some c) fs (l ++ rest) = orthoLoop proc outDir ow (some c) fs1 rest ∧
      (∀ s ∈ l, fs1 (orthoPath outDir s.stem) = some (.done s.im c)) ∧
      ∀ q, (∀ s ∈ l, q ≠ orthoPath outDir s.stem) → fs1 q = fs q := by
  induction l generalizing fs with
  | nil => exact ⟨fs, rfl, by simp, fun q _ => rfl⟩
  | cons s l ih =>
    rw [List.map_cons, List.nodup_cons] at hn
    have ho := orthoOne_done (ow := ow) (fs := fs) (outDir := outDir) (h1 s (by simp)) (h2 s (by simp)) (h3 s (by simp)) (h4 s (by simp))
    have hne : ∀ t ∈ l, orthoPath outDir t.stem ≠ orthoPath outDir s.stem := fun t ht e =>
      hn.1 (C58_paths outDir _ _ e ▸ List.mem_map_of_mem ht)
    obtain ⟨fs1, e1, e2, e3⟩ := ih (fun q => if q = orthoPath outDir s.stem then some (.done s.im c) else fs q)
      (fun t ht => h1 t (by simp [ht])) (fun t ht => h2 t (by simp [ht])) (fun t ht => h3 t (by simp [ht]))
      (fun t ht => by
        rcases h4 t (by simp [ht]) with h | h
        · exact Or.inl h
        · right; simp only [if_neg (hne t ht), h]) hn.2
    refine ⟨fs1, ?_, ?_, ?_⟩
    · rw [List.cons_append, orthoLoop, ho]; exact e1
    · intro t ht
      rcases List.mem_cons.1 ht with rfl | ht
      · rw [e3 _ fun u hu e => hne u hu e.symm, if_pos rfl]
      · exact e2 t ht
    · intro q hq
      rw [e3 q fun t ht => hq t (by simp [ht]), if_neg (hq s (by simp))]

theorem run_eq {d : Data C} {proc : Text → C → Proc} {outDir : String} {ow : Bool} {option : Option C} {count : ℕ} {dc : Option C}
    {cams : Option C → Res (Option C)} {fs : Fs C Text} {c : C} (hcrs : (option <|> dc) = some c) (hcount : 1 ≤ count)
    (hcams : ∃ r, cams (some c) = .ok r) (hne : ∃ p, Image d p) :
    run d proc outDir ow option (.ok (count, dc)) cams fs = orthoLoop proc outDir ow (some c) fs (d.sources.map d.src) := by
  obtain ⟨r, hr⟩ := hcams
  obtain ⟨p, hp⟩ := hne
  have hl : ¬ (d.sources.map d.src).length = 0 := by
    have := (mem_sources d p).2 hp
    rw [List.length_map, List.length_eq_zero_iff]
    rintro e
    rw [e] at this
    cases this
  have hb : checkBand 1 count = .ok () := (C59_bands [] count).2.2.1 1 |>.2 ⟨le_refl _, by exact_mod_cast hcount⟩
  unfold run odmCmd
  simp only [hl, if_false, hcrs, hr, orthoCmd, ortho, hb, Bool.false_eq_true]

/-- C120, the part that holds: when there is a camera for each image file of the dataset, the files can be read and processed,
their names without extension differ, and orthos do not exist or are to be overwritten, then `oty odm` ends without an
exception, with the ortho of each image file of the dataset in the output directory, in the CRS of the option or else of the
DSM; no other file is changed.  Missing: image files without a shot, see `C120_unreconstructed_fails`. -/
theorem C120_partial (d : Data C) (hshots : Dict.Ok d.shots) (proc : Text → C → Proc) (outDir : String) (ow : Bool) (option : Option C)
    (count : ℕ) (dc : Option C) (cams : Option C → Res (Option C)) (fs : Fs C Text) (c : C)
    (hcrs : option = some c ∨ (option = none ∧ dc = some c)) (hcount : 1 ≤ count) (hcams : ∃ r, cams (some c) = .ok r)
    (hne : ∃ p, Image d p) (hcam : ∀ p, Image d p → HasCamera d p) (hopen : ∀ p, Image d p → d.opened p = .ok ())
    (hproc : ∀ p, Image d p → proc p c = .done) (hover : ow = true ∨ ∀ p, Image d p → fs (orthoAt outDir p) = none)
    (hfind : (d.find (joinPath d.dir "images/".toList)).Nodup) (hstem : ∀ p q, Image d p → Image d q → pathStem p = pathStem q → p = q) :
    ∃ fs', run d proc outDir ow option (.ok (count, dc)) cams fs = (fs', .ok ()) ∧
      (∀ p, Image d p → fs' (orthoAt outDir p) = some (.done p c)) ∧
      ∀ q, (∀ p, Image d p → q ≠ orthoAt outDir p) → fs' q = fs q := by
  have hc : (option <|> dc) = some c := by
    rcases hcrs with rfl | ⟨rfl, rfl⟩ <;> rfl
  rw [run_eq hc hcount hcams hne]
  have hm : ∀ s ∈ d.sources.map d.src, ∃ p, Image d p ∧ s = d.src p := by
    intro s hs
    obtain ⟨p, hp, rfl⟩ := List.mem_map.1 hs
    exact ⟨p, (mem_sources d p).1 hp, rfl⟩
  have hn : ((d.sources.map d.src).map Src.stem).Nodup := by
    rw [List.map_map]
    have : (Src.stem ∘ d.src : Text → String) = String.ofList ∘ pathStem := rfl
    rw [this, ← List.map_map]
    refine List.Nodup.map (fun a b e => by simpa using congrArg String.toList e) ?_
    refine List.Nodup.map_on ?_ (hfind.filter _)
    exact fun p hp q hq e => hstem p q ((mem_sources d p).1 hp) ((mem_sources d q).1 hq) e
  obtain ⟨fs1, e1, e2, e3⟩ := orthoLoop_done (proc := proc) (outDir := outDir) (ow := ow) (c := c) (d.sources.map d.src) [] fs
    (fun s hs => by obtain ⟨p, hp, rfl⟩ := hm s hs; exact get_ok hshots (hcam p hp))
    (fun s hs => by obtain ⟨p, hp, rfl⟩ := hm s hs; exact hopen p hp)
    (fun s hs => by obtain ⟨p, hp, rfl⟩ := hm s hs; exact hproc p hp)
    (fun s hs => by obtain ⟨p, hp, rfl⟩ := hm s hs; exact hover.imp_right fun h => h p hp) hn
  rw [List.append_nil] at e1
  refine ⟨fs1, by rw [e1]; rfl, fun p hp => ?_, fun q hq => ?_⟩
  · exact e2 (d.src p) (List.mem_map_of_mem ((mem_sources d p).2 hp))
  · refine e3 q fun s hs => ?_
    obtain ⟨p, hp, rfl⟩ := hm s hs
    exact hq p hp

/-- C120 is false of datasets with an image file that OpenDroneMap could not reconstruct, or that is no photograph, such as a mask:
the command ends with an error at that file, whatever the other files and options are.  The files that the file system lists
after it get no ortho. -/
theorem C120_unreconstructed_fails (d : Data C) (proc : Text → C → Proc) (outDir : String) (ow : Bool) (option : Option C)
    (dsm : Res (ℕ × Option C)) (cams : Option C → Res (Option C)) (fs : Fs C Text) (pre post : List Text) (p : Text)
    (hfind : d.find (joinPath d.dir "images/".toList) = pre ++ p :: post) (hp : ImageName p) (hshot : ¬ HasShot d p) :
    (run d proc outDir ow option dsm cams fs).2 ≠ .ok () ∧
    ∀ q, (∀ r ∈ pre, ImageName r → q ≠ orthoAt outDir r) → (run d proc outDir ow option dsm cams fs).1 q = fs q := by
  have hs : d.sources = pre.filter isSrc ++ p :: post.filter isSrc := by
    unfold Data.sources
    rw [hfind, List.filter_append, List.filter_cons, if_pos ((isSrc_iff p).2 hp)]
  have hloop : ∀ crs fs, (orthoLoop proc outDir ow crs fs (d.sources.map d.src)).2 ≠ .ok () ∧
      ∀ q, (∀ r ∈ pre, ImageName r → q ≠ orthoAt outDir r) → (orthoLoop proc outDir ow crs fs (d.sources.map d.src)).1 q = fs q := by
    rw [hs, List.map_append, List.map_cons]
    have hpre : ∀ r ∈ pre.filter isSrc, r ∈ pre ∧ ImageName r := fun r hr =>
      ⟨(List.mem_filter.1 hr).1, (isSrc_iff r).1 (List.mem_filter.1 hr).2⟩
    generalize pre.filter isSrc = l at hpre
    generalize post.filter isSrc = m
    intro crs fs
    induction l generalizing crs fs with
    | nil =>
      have hg : (d.src p).cam = .error .paramError := get_none hshot
      simp only [List.map_nil, List.nil_append, orthoLoop, orthoOne, hg]
      exact ⟨by simp, fun q _ => trivial⟩
    | cons r l ih =>
      rw [List.map_cons, List.cons_append, orthoLoop]
      obtain ⟨f1, -⟩ := orthoOne_spec proc outDir ow crs fs (d.src r)
      cases ho : orthoOne proc outDir ow crs fs (d.src r) with
      | mk fs1 res =>
        rw [ho] at f1
        have hq1 : ∀ q, (∀ r ∈ pre, ImageName r → q ≠ orthoAt outDir r) → fs1 q = fs q := fun q hq =>
          f1 q (hq r (hpre r (by simp)).1 (hpre r (by simp)).2)
        cases res with
        | error e => exact ⟨by simp, hq1⟩
        | ok crs1 =>
          obtain ⟨a, b⟩ := ih (fun t ht => hpre t (by simp [ht])) crs1 fs1
          exact ⟨a, fun q hq => (b q hq).trans (hq1 q hq)⟩
  unfold run odmCmd
  split
  · exact ⟨by simp, fun q _ => rfl⟩
  · cases dsm with
    | error e => exact ⟨by simp, fun q _ => rfl⟩
    | ok nd =>
      obtain ⟨count, dc⟩ := nd
      simp only
      cases cams (option <|> dc) with
      | error e => exact ⟨by simp, fun q _ => rfl⟩
      | ok u =>
        simp only [orthoCmd, ortho, Bool.false_eq_true, if_false]
        cases checkBand 1 count with
        | error e => exact ⟨by simp, fun q _ => rfl⟩
        | ok u => exact hloop _ _

/-- What is left of such a dataset, when all else is well: the orthos of the images before the file, and a usage error. -/
theorem C120_unreconstructed_error (d : Data C) (hshots : Dict.Ok d.shots) (proc : Text → C → Proc) (outDir : String) (ow : Bool)
    (option : Option C) (count : ℕ) (dc : Option C) (cams : Option C → Res (Option C)) (fs : Fs C Text) (c : C)
    (hcrs : option = some c ∨ (option = none ∧ dc = some c)) (hcount : 1 ≤ count) (hcams : ∃ r, cams (some c) = .ok r)
    (pre post : List Text) (p : Text) (hfind : d.find (joinPath d.dir "images/".toList) = pre ++ p :: post)
    (hp : ImageName p) (hshot : ¬ HasShot d p)
    (hcam : ∀ r ∈ pre, ImageName r → HasCamera d r ∧ d.opened r = .ok () ∧ proc r c = .done)
    (hover : ow = true ∨ ∀ r ∈ pre, ImageName r → fs (orthoAt outDir r) = none) (hnd : pre.Nodup)
    (hstem : ∀ r ∈ pre, ∀ t ∈ pre, ImageName r → ImageName t → pathStem r = pathStem t → r = t) :
    (run d proc outDir ow option (.ok (count, dc)) cams fs).2 = .error .clickException ∧
    ∀ r ∈ pre, ImageName r → (run d proc outDir ow option (.ok (count, dc)) cams fs).1 (orthoAt outDir r) = some (.done r c) := by
  have hc : (option <|> dc) = some c := by
    rcases hcrs with rfl | ⟨rfl, rfl⟩ <;> rfl
  have hs : d.sources = pre.filter isSrc ++ p :: post.filter isSrc := by
    unfold Data.sources
    rw [hfind, List.filter_append, List.filter_cons, if_pos ((isSrc_iff p).2 hp)]
  have hI : ∃ p, Image d p := ⟨p, by rw [hfind]; simp, hp⟩
  rw [run_eq hc hcount hcams hI, hs, List.map_append, List.map_cons]
  have hm : ∀ s ∈ (pre.filter isSrc).map d.src, ∃ r ∈ pre, ImageName r ∧ s = d.src r := by
    intro s hs
    obtain ⟨r, hr, rfl⟩ := List.mem_map.1 hs
    exact ⟨r, (List.mem_filter.1 hr).1, (isSrc_iff r).1 (List.mem_filter.1 hr).2, rfl⟩
  have hn : (((pre.filter isSrc).map d.src).map Src.stem).Nodup := by
    rw [List.map_map]
    have : (Src.stem ∘ d.src : Text → String) = String.ofList ∘ pathStem := rfl
    rw [this, ← List.map_map]
    refine List.Nodup.map (fun a b e => by simpa using congrArg String.toList e) ?_
    refine List.Nodup.map_on ?_ (hnd.filter _)
    exact fun p hp q hq e => hstem p (List.mem_filter.1 hp).1 q (List.mem_filter.1 hq).1 ((isSrc_iff p).1 (List.mem_filter.1 hp).2)
      ((isSrc_iff q).1 (List.mem_filter.1 hq).2) e
  obtain ⟨fs1, e1, e2, -⟩ := orthoLoop_done (proc := proc) (outDir := outDir) (ow := ow) (c := c) ((pre.filter isSrc).map d.src)
    (d.src p :: (post.filter isSrc).map d.src) fs
    (fun s hs => by obtain ⟨r, hr, hi, rfl⟩ := hm s hs; exact get_ok hshots (hcam r hr hi).1)
    (fun s hs => by obtain ⟨r, hr, hi, rfl⟩ := hm s hs; exact (hcam r hr hi).2.1)
    (fun s hs => by obtain ⟨r, hr, hi, rfl⟩ := hm s hs; exact (hcam r hr hi).2.2)
    (fun s hs => by obtain ⟨r, hr, hi, rfl⟩ := hm s hs; exact hover.imp_right fun h => h r hr hi) hn
  have hg : (d.src p).cam = .error .paramError := get_none hshot
  have hlast : orthoLoop proc outDir ow (some c) fs1 (d.src p :: (post.filter isSrc).map d.src) = (fs1, .error .clickException) := by
    simp only [orthoLoop, orthoOne, hg, isOrthority, if_true]
  rw [e1, hlast]
  refine ⟨rfl, fun r hr hi => ?_⟩
  exact e2 (d.src r) (List.mem_map_of_mem (List.mem_filter.2 ⟨hr, (isSrc_iff r).2 hi⟩))

/-! ## Datasets -/

/-- A dataset in `/d` with the given files in `images`, and the given shots. -/
def exData (files : List String) (shots : List String) : Data ℕ where
  dir := "/d".toList
  find q := if q = "/d/images/".toList then files.map String.toList else []
  shots := shots.map fun s => (s, .ok ())
  opened _ := .ok ()
  crs _ := none

theorem exData_noShot (files shots : List String) (p : Text) (h1 : String.ofList (pathName p) ∉ shots)
    (h2 : String.ofList (pathStem p) ∉ shots) : ¬ HasShot (exData files shots) p := by
  have hm : ∀ (n : String) (r : Res Unit), (n, r) ∈ (exData files shots).shots → n ∈ shots := by
    intro n r h
    obtain ⟨s, hs, e⟩ := List.mem_map.1 h
    rw [← (Prod.mk.inj e).1]
    exact hs
  rintro ⟨r, h | h⟩
  · exact h1 (hm _ r h)
  · exact h2 (hm _ r h)

/-- Its `oty odm` run, in the CRS 7 of the DSM. -/
def exRun (files shots : List String) (outDir : String) (ow : Bool) (fs : Fs ℕ Text) : Fs ℕ Text × Res Unit :=
  run (exData files shots) (fun _ _ => .done) outDir ow none (.ok (1, some 7)) .ok fs

/-- Two images, one below the directory, with the other files that cameras and systems leave there. -/
def exFiles : List String := ["/d/images/a.JPG", "/d/images/a.JPG.xml", "/d/images/b/c.tiff", "/d/images/thumbs"]

theorem exFiles_image (p : Text) :
    Image (exData exFiles ["a.JPG", "c.tiff"]) p ↔ p = "/d/images/a.JPG".toList ∨ p = "/d/images/b/c.tiff".toList := by
  rw [← mem_sources]
  have : (exData exFiles ["a.JPG", "c.tiff"]).sources = ["/d/images/a.JPG".toList, "/d/images/b/c.tiff".toList] := by
    decide +kernel
  rw [this]
  simp

example : ∃ fs', exRun exFiles ["a.JPG", "c.tiff"] "/o" false (fun _ => none) = (fs', .ok ()) ∧
    fs' "/o/a_ORTHO.tif" = some (.done "/d/images/a.JPG".toList 7) ∧
    fs' "/o/c_ORTHO.tif" = some (.done "/d/images/b/c.tiff".toList 7) := by
  obtain ⟨fs', h1, h2, -⟩ := C120_partial (exData exFiles ["a.JPG", "c.tiff"]) (by unfold Dict.Ok; decide +kernel) (fun _ _ => .done)
    "/o" false none 1 (some 7) .ok (fun _ => none) 7 (Or.inr ⟨rfl, rfl⟩) (le_refl _) ⟨_, rfl⟩ ⟨_, (exFiles_image _).2 (Or.inl rfl)⟩
    (fun p hp => by
      rcases (exFiles_image p).1 hp with rfl | rfl
      · exact Or.inl (by decide +kernel)
      · exact Or.inl (by decide +kernel))
    (fun _ _ => rfl) (fun _ _ => rfl) (Or.inr fun _ _ => rfl) (by decide +kernel)
    (fun p q hp hq e => by
      rcases (exFiles_image p).1 hp with rfl | rfl <;> rcases (exFiles_image q).1 hq with rfl | rfl
      · rfl
      · revert e; decide +kernel
      · revert e; decide +kernel
      · rfl)
  refine ⟨fs', h1, ?_, ?_⟩
  · have := h2 _ ((exFiles_image _).2 (Or.inl rfl))
    rwa [show orthoAt "/o" "/d/images/a.JPG".toList = "/o/a_ORTHO.tif" by decide +kernel] at this
  · have := h2 _ ((exFiles_image _).2 (Or.inr rfl))
    rwa [show orthoAt "/o" "/d/images/b/c.tiff".toList = "/o/c_ORTHO.tif" by decide +kernel] at this

/-- C120 is false of a dataset with a mask beside its image, as OpenDroneMap asks for (`a_mask.JPG` for `a.JPG`): `a` and `b` are
reconstructed, but the command ends with a usage error and makes no ortho of `b`, also when it is run again with `--overwrite`. -/
theorem C120_mask_fails (ow : Bool) :
    let files := ["/d/images/a.JPG", "/d/images/a_mask.JPG", "/d/images/b.JPG"]
    (∀ p ∈ ["/d/images/a.JPG".toList, "/d/images/b.JPG".toList], HasCamera (exData files ["a.JPG", "b.JPG"]) p) ∧
    (exRun files ["a.JPG", "b.JPG"] "/o" ow (fun _ => none)).2 = .error .clickException ∧
    (exRun files ["a.JPG", "b.JPG"] "/o" ow (fun _ => none)).1 "/o/a_ORTHO.tif" = some (.done "/d/images/a.JPG".toList 7) ∧
    (exRun files ["a.JPG", "b.JPG"] "/o" ow (fun _ => none)).1 "/o/b_ORTHO.tif" = none := by
  intro files
  have hi : ∀ p ∈ files.map String.toList, ImageName p := by
    intro p hp
    rw [← isSrc_iff]
    revert p
    decide +kernel
  have hc : ∀ p ∈ ["/d/images/a.JPG".toList, "/d/images/b.JPG".toList], HasCamera (exData files ["a.JPG", "b.JPG"]) p := by
    intro p hp
    left
    revert p
    decide +kernel
  have hshot : ¬ HasShot (exData files ["a.JPG", "b.JPG"]) "/d/images/a_mask.JPG".toList :=
    exData_noShot _ _ _ (by decide +kernel) (by decide +kernel)
  have hr := C120_unreconstructed_error (exData files ["a.JPG", "b.JPG"]) (by unfold Dict.Ok; decide +kernel) (fun _ _ => .done)
    "/o" ow none 1 (some 7) .ok (fun _ => none) 7 (Or.inr ⟨rfl, rfl⟩) (le_refl _) ⟨_, rfl⟩ ["/d/images/a.JPG".toList]
    ["/d/images/b.JPG".toList] "/d/images/a_mask.JPG".toList (by decide +kernel) (hi _ (by decide +kernel)) hshot
    (fun r hr hI => ⟨hc r (by simp [List.mem_singleton.1 hr]), rfl, rfl⟩) (Or.inr fun _ _ _ => rfl) (by decide +kernel)
    (fun r hr t ht _ _ _ => by rw [List.mem_singleton.1 hr, List.mem_singleton.1 ht])
  have hq := (C120_unreconstructed_fails (exData files ["a.JPG", "b.JPG"]) (fun _ _ => .done) "/o" ow none (.ok (1, some 7)) .ok
    (fun _ => none) ["/d/images/a.JPG".toList] ["/d/images/b.JPG".toList] "/d/images/a_mask.JPG".toList (by decide +kernel)
    (hi _ (by decide +kernel)) hshot).2 "/o/b_ORTHO.tif" (by
      intro r hr _
      rw [List.mem_singleton.1 hr]
      decide +kernel)
  refine ⟨hc, hr.1, ?_, hq⟩
  have := hr.2 "/d/images/a.JPG".toList (by simp) (hi _ (by decide +kernel))
  rwa [show orthoAt "/o" "/d/images/a.JPG".toList = "/o/a_ORTHO.tif" by decide +kernel] at this

/-- C120 is false of a second run with the image directory as output directory: the ortho of the first run is taken for an image of
the dataset, and the command ends with an error, with and without `--overwrite`. -/
theorem C120_again_fails (ow : Bool) (proc : Text → ℕ → Proc) (option : Option ℕ) (dsm : Res (ℕ × Option ℕ))
    (cams : Option ℕ → Res (Option ℕ)) (fs : Fs ℕ Text) :
    ∃ fs', exRun ["/d/images/a.JPG"] ["a.JPG"] "/d/images" ow (fun _ => none) = (fs', .ok ()) ∧
      fs' "/d/images/a_ORTHO.tif" = some (.done "/d/images/a.JPG".toList 7) ∧
      (run (exData ["/d/images/a.JPG", "/d/images/a_ORTHO.tif"] ["a.JPG"]) proc "/d/images" ow option dsm cams fs).2 ≠ .ok () := by
  have hI : ∀ p, Image (exData ["/d/images/a.JPG"] ["a.JPG"]) p ↔ p = "/d/images/a.JPG".toList := by
    intro p
    rw [← mem_sources]
    have : (exData ["/d/images/a.JPG"] ["a.JPG"]).sources = ["/d/images/a.JPG".toList] := by decide +kernel
    rw [this]
    simp
  obtain ⟨fs', h1, h2, -⟩ := C120_partial (exData ["/d/images/a.JPG"] ["a.JPG"]) (by unfold Dict.Ok; decide +kernel) (fun _ _ => .done)
    "/d/images" ow none 1 (some 7) .ok (fun _ => none) 7 (Or.inr ⟨rfl, rfl⟩) (le_refl _) ⟨_, rfl⟩ ⟨_, (hI _).2 rfl⟩
    (fun p hp => by rw [(hI p).1 hp]; exact Or.inl (by decide +kernel))
    (fun _ _ => rfl) (fun _ _ => rfl) (Or.inr fun _ _ => rfl) (by decide +kernel) (fun p q hp hq _ => by rw [(hI p).1 hp, (hI q).1 hq])
  refine ⟨fs', h1, ?_, ?_⟩
  · have := h2 _ ((hI _).2 rfl)
    rwa [show orthoAt "/d/images" "/d/images/a.JPG".toList = "/d/images/a_ORTHO.tif" by decide +kernel] at this
  · refine (C120_unreconstructed_fails (exData ["/d/images/a.JPG", "/d/images/a_ORTHO.tif"] ["a.JPG"]) proc "/d/images" ow option dsm
      cams fs ["/d/images/a.JPG".toList] [] "/d/images/a_ORTHO.tif".toList (by decide +kernel) ?_ ?_).1
    · rw [← isSrc_iff]; decide +kernel
    · exact exData_noShot _ _ _ (by decide +kernel) (by decide +kernel)

end Verif.Cli.Dataset
