import Verif.Files.Names

/-!
# C96: commands keep the files that they read

What the commands write, by name, and what becomes of the files that they read.  The contents of the files are not
modelled: an output is a function of the contents of its source, and an output that is not finished is anything.
-/

set_option autoImplicit false

namespace Verif.Cli.Inputs

open Verif.Files.Names

/-! ## Model -/

/-- The files by path. -/
abbrev Disk (B : Type) := Text → Option B

def Disk.put {B : Type} (fs : Disk B) (p : Text) (b : B) : Disk B := Function.update fs p (some b)

/-- `posixpath.join(base, rel)` of a relative path, orthority/common.py:245. -/
def joinPath (base rel : Text) : Text :=
  if base = [] ∨ base.getLast? = some '/' then base ++ rel else base ++ '/' :: rel

/-- The ortho path of a source, orthority/cli.py:361-367. -/
def orthoOf (outDir src : Text) : Text := joinPath outDir (pathStem src ++ "_ORTHO.tif".toList)

/-- The names of exported parameter files, orthority/factory.py:238, 245, 390 and 393. -/
def exportNames : List Text :=
  ["int_param.yaml".toList, "ext_param.geojson".toList, "rpc_param.yaml".toList, "gcps.geojson".toList]

/-- The arguments of a command that name files: `oty frame`, `exif`, `odm` and `rpc` (`ortho`, with the DEM and the
parameter files in `others`; or `params`, when `--export-params` is given), and `oty sharpen`. -/
inductive Command
  | ortho (srcs others : List Text) (outDir : Text)
  | params (others : List Text) (outDir : Text)
  | sharpen (pan ms out : Text)

variable {B : Type}

/-- orthority/cli.py:341-372: the loop over sources in `_ortho`, as far as it is executed (the last argument is whether
it was to its end).  A source is read, and its ortho written when it does not exist or `ow` is set
(orthority/common.py:312).  The command can stop at any time, which can leave an output that is not finished. -/
inductive Orthos (proc : B → B) (ow : Bool) (outDir : Text) : List Text → Disk B → Disk B → Bool → Prop
  | stop (srcs : List Text) (fs : Disk B) : Orthos proc ow outDir srcs fs fs false
  | broken (s : Text) (srcs : List Text) (fs : Disk B) (b : B) : (ow = true ∨ fs (orthoOf outDir s) = none) →
      Orthos proc ow outDir (s :: srcs) fs (fs.put (orthoOf outDir s) b) false
  | nil (fs : Disk B) : Orthos proc ow outDir [] fs fs true
  | step (s : Text) (srcs : List Text) (fs fs' : Disk B) (b : B) (r : Bool) : fs s = some b →
      (ow = true ∨ fs (orthoOf outDir s) = none) →
      Orthos proc ow outDir srcs (fs.put (orthoOf outDir s) (proc b)) fs' r →
      Orthos proc ow outDir (s :: srcs) fs fs' r

/-- orthority/factory.py:236-248 and 378-394 `write_param`, as far as it is executed: some of the files are written, in any
order here, with any contents. -/
inductive Params (ow : Bool) (outDir : Text) : Disk B → Disk B → Prop
  | stop (fs : Disk B) : Params ow outDir fs fs
  | step (n : Text) (fs fs' : Disk B) (b : B) : n ∈ exportNames → (ow = true ∨ fs (joinPath outDir n) = none) →
      Params ow outDir (fs.put (joinPath outDir n) b) fs' → Params ow outDir fs fs'

/-- orthority/cli.py:1174-1211: `oty sharpen`, as far as it is executed. -/
inductive Sharpens (mix : B → B → B) (ow : Bool) (pan ms out : Text) : Disk B → Disk B → Bool → Prop
  | stop (fs : Disk B) : Sharpens mix ow pan ms out fs fs false
  | broken (fs : Disk B) (b : B) : (ow = true ∨ fs out = none) → Sharpens mix ow pan ms out fs (fs.put out b) false
  | done (fs : Disk B) (p m : B) : fs pan = some p → fs ms = some m → (ow = true ∨ fs out = none) →
      Sharpens mix ow pan ms out fs (fs.put out (mix p m)) true

/-- A command with or without `--overwrite`. -/
inductive Executes (proc : B → B) (mix : B → B → B) (ow : Bool) : Command → Disk B → Disk B → Prop
  | ortho (srcs others : List Text) (outDir : Text) (fs fs' : Disk B) (r : Bool) :
      Orthos proc ow outDir srcs fs fs' r → Executes proc mix ow (.ortho srcs others outDir) fs fs'
  | params (others : List Text) (outDir : Text) (fs fs' : Disk B) :
      Params ow outDir fs fs' → Executes proc mix ow (.params others outDir) fs fs'
  | sharpen (pan ms out : Text) (fs fs' : Disk B) (r : Bool) :
      Sharpens mix ow pan ms out fs fs' r → Executes proc mix ow (.sharpen pan ms out) fs fs'

/-! ## Specification -/

/-- The files that a command reads. -/
def Command.inputs : Command → List Text
  | .ortho srcs others _ => srcs ++ others
  | .params others _ => others
  | .sharpen pan ms _ => [pan, ms]

/-- The file is directly in the directory, and has the name. -/
def InDir (dir p n : Text) : Prop := p = joinPath dir n

/-- No file that is read has the name and directory of an output. -/
def Command.Apart : Command → Prop
  | .ortho srcs others dir => ∀ p ∈ srcs ++ others, ∀ s, ¬ InDir dir p (s ++ "_ORTHO.tif".toList)
  | .params others dir => ∀ p ∈ others,
      ∀ n ∈ ["int_param.yaml".toList, "ext_param.geojson".toList, "rpc_param.yaml".toList, "gcps.geojson".toList], ¬ InDir dir p n
  | .sharpen pan ms out => out ≠ pan ∧ out ≠ ms

/-! ## Theorems -/

theorem put_keeps {fs : Disk B} {p q : Text} {b : B} (h : q ≠ p) : fs.put p b q = fs q :=
  Function.update_of_ne h _ _

theorem ne_of_write {ow : Bool} {fs : Disk B} {p q : Text} (h : ow = true ∨ fs p = none) (how : ow = false)
    (hq : fs q ≠ none) : q ≠ p := by
  rintro rfl
  rcases h with h | h
  · rw [how] at h; cases h
  · exact hq h

theorem Orthos.keeps {proc : B → B} {ow : Bool} {outDir : Text} {srcs : List Text} {fs fs' : Disk B} {r : Bool}
    (h : Orthos proc ow outDir srcs fs fs' r) {q : Text} (hq : ∀ s ∈ srcs, q ≠ orthoOf outDir s) : fs' q = fs q := by
  induction h with
  | stop srcs fs => rfl
  | broken s srcs fs b hw => exact put_keeps (hq s (by simp))
  | nil fs => rfl
  | step s srcs fs fs' b r hb hw hrest ih =>
    rw [ih fun t ht => hq t (by simp [ht])]
    exact put_keeps (hq s (by simp))

theorem Orthos.existing {proc : B → B} {ow : Bool} {outDir : Text} {srcs : List Text} {fs fs' : Disk B} {r : Bool}
    (h : Orthos proc ow outDir srcs fs fs' r) (how : ow = false) {q : Text} (hq : fs q ≠ none) : fs' q = fs q := by
  induction h with
  | stop srcs fs => rfl
  | broken s srcs fs b hw => exact put_keeps (ne_of_write hw how hq)
  | nil fs => rfl
  | step s srcs fs fs' b r hb hw hrest ih =>
    have hk : fs.put (orthoOf outDir s) (proc b) q = fs q := put_keeps (ne_of_write hw how hq)
    rw [ih (by rw [hk]; exact hq), hk]

theorem Params.keeps {ow : Bool} {outDir : Text} {fs fs' : Disk B} (h : Params ow outDir fs fs') {q : Text}
    (hq : ∀ n ∈ exportNames, q ≠ joinPath outDir n) : fs' q = fs q := by
  induction h with
  | stop fs => rfl
  | step n fs fs' b hn hw hrest ih => rw [ih]; exact put_keeps (hq n hn)

theorem Params.existing {ow : Bool} {outDir : Text} {fs fs' : Disk B} (h : Params ow outDir fs fs') (how : ow = false)
    {q : Text} (hq : fs q ≠ none) : fs' q = fs q := by
  induction h with
  | stop fs => rfl
  | step n fs fs' b hn hw hrest ih =>
    have hk : fs.put (joinPath outDir n) b q = fs q := put_keeps (ne_of_write hw how hq)
    rw [ih (by rw [hk]; exact hq), hk]

/-- C96: without `--overwrite`, a command changes no file that there was before it, wherever it stops. -/
theorem C96_no_overwrite (proc : B → B) (mix : B → B → B) (c : Command) (fs fs' : Disk B)
    (h : Executes proc mix false c fs fs') (q : Text) (hq : fs q ≠ none) : fs' q = fs q := by
  cases h with
  | ortho srcs others outDir _ _ r h => exact h.existing rfl hq
  | params others outDir _ _ h => exact h.existing rfl hq
  | sharpen pan ms out _ _ r h =>
    cases h with
    | stop => rfl
    | broken b hw => exact put_keeps (ne_of_write hw rfl hq)
    | done p m h1 h2 hw => exact put_keeps (ne_of_write hw rfl hq)

/-- C96 (the part that holds with `--overwrite`): a command changes no file that it reads, wherever it stops, when none of
these is in the output directory under a name that ends with `_ORTHO.tif` (or that of a parameter file that is exported),
or is the output of `oty sharpen`. -/
theorem C96_apart_partial (proc : B → B) (mix : B → B → B) (ow : Bool) (c : Command) (hc : c.Apart) (fs fs' : Disk B)
    (h : Executes proc mix ow c fs fs') (q : Text) (hq : q ∈ c.inputs) : fs' q = fs q := by
  cases h with
  | ortho srcs others outDir _ _ r h => exact h.keeps fun s _ => hc q hq _
  | params others outDir _ _ h => exact h.keeps fun n hn => hc q hq n hn
  | sharpen pan ms out _ _ r h =>
    have hne : q ≠ out := by
      simp only [Command.inputs, List.mem_cons, List.not_mem_nil, or_false] at hq
      rcases hq with rfl | rfl
      · exact Ne.symm hc.1
      · exact Ne.symm hc.2
    cases h with
    | stop => rfl
    | broken b hw => exact put_keeps hne
    | done p m h1 h2 hw => exact put_keeps hne

/-- C96: it is enough that no source, DEM or parameter file has a name that ends with `_ORTHO.tif`: the sources of a
command can then be in its output directory, with or without `--overwrite`. -/
theorem C96_names (srcs others : List Text) (dir : Text)
    (h : ∀ p ∈ srcs ++ others, ∃ n, EndsIn p n ∧ ¬ "_ORTHO.tif".toList <:+ n) : (Command.ortho srcs others dir).Apart := by
  intro p hp s hs
  obtain ⟨n, hn, hsuf⟩ := h p hp
  have hne : p = joinPath dir (s ++ "_ORTHO.tif".toList) := hs
  rcases hn with ⟨h1, h2, h3, h4⟩
  have hsufp : "_ORTHO.tif".toList <:+ p := by
    rw [hne]
    unfold joinPath
    split_ifs
    · exact ⟨dir ++ s, by simp⟩
    · exact ⟨dir ++ '/' :: s, by simp⟩
  apply hsuf
  rcases h4 with h4 | ⟨d, h4⟩
  · rwa [← h4]
  · rw [h4] at hsufp
    have hn' : n <:+ d ++ '/' :: n := ⟨d ++ ['/'], by simp⟩
    rcases List.suffix_or_suffix_of_suffix hsufp hn' with h | h
    · exact h
    · -- a longer suffix would have the slash
      obtain ⟨t, ht⟩ := h
      obtain ⟨u, hu⟩ := hsufp
      by_cases htn : t = []
      · rw [htn, List.nil_append] at ht
        rw [ht]
        exact List.suffix_refl _
      · exfalso
        obtain ⟨t', c, htc⟩ : ∃ t' c, t = t' ++ [c] := by
          rcases List.eq_nil_or_concat t with h | ⟨l, b, h⟩
          · exact absurd h htn
          · exact ⟨l, b, by simpa using h⟩
        have heq : (u ++ t' ++ [c]) ++ n = (d ++ ['/']) ++ n := by
          rw [← ht, htc] at hu
          simpa using hu
        have hc := List.append_cancel_right heq
        have hc' : c = '/' := by
          have := congrArg List.getLast? hc
          simpa using this
        have hmem : '/' ∈ "_ORTHO.tif".toList := by
          rw [← ht, htc, hc']
          simp
        revert hmem
        decide

/-- C96 is false with `--overwrite` of a source in the output directory that has the name of an ortho of another source: when
the command has ended, that file is the ortho of the other source, and its own ortho was made from that. -/
theorem C96_source_fails (proc : B → B) (mix : B → B → B) (fs : Disk B) (a b : B) (ha : fs "d/x.tif".toList = some a)
    (hb : fs "d/x_ORTHO.tif".toList = some b) :
    (∃ fs', Orthos proc true "d".toList ["d/x.tif".toList, "d/x_ORTHO.tif".toList] fs fs' true) ∧
    ∀ fs', Orthos proc true "d".toList ["d/x.tif".toList, "d/x_ORTHO.tif".toList] fs fs' true →
      Executes proc mix true (.ortho ["d/x.tif".toList, "d/x_ORTHO.tif".toList] [] "d".toList) fs fs' ∧
      fs' "d/x_ORTHO.tif".toList = some (proc a) ∧ fs' "d/x_ORTHO_ORTHO.tif".toList = some (proc (proc a)) ∧
      (b ≠ proc a → fs' "d/x_ORTHO.tif".toList ≠ fs "d/x_ORTHO.tif".toList) := by
  have e1 : orthoOf "d".toList "d/x.tif".toList = "d/x_ORTHO.tif".toList := by decide +kernel
  have e2 : orthoOf "d".toList "d/x_ORTHO.tif".toList = "d/x_ORTHO_ORTHO.tif".toList := by decide +kernel
  have hne : "d/x_ORTHO.tif".toList ≠ "d/x_ORTHO_ORTHO.tif".toList := by decide +kernel
  constructor
  · refine ⟨_, .step _ _ fs _ a true ha (Or.inl rfl) (.step _ _ _ _ (proc a) true ?_ (Or.inl rfl) (.nil _))⟩
    rw [e1]
    exact Function.update_self ..
  · intro fs' h
    refine ⟨.ortho _ _ _ _ _ true h, ?_⟩
    cases h with
    | step s srcs _ _ a' r h1 h2 h3 =>
      rw [ha] at h1
      cases h1
      cases h3 with
      | step s srcs _ _ b' r h4 h5 h6 =>
        cases h6
        rw [e1] at h4
        have : (Disk.put fs "d/x_ORTHO.tif".toList (proc a)) "d/x_ORTHO.tif".toList = some (proc a) :=
          Function.update_self ..
        rw [this] at h4
        cases h4
        rw [e1, e2]
        refine ⟨by rw [put_keeps hne, this], Function.update_self .., ?_⟩
        intro hab
        rw [put_keeps hne, this, hb]
        exact fun h => hab (Option.some.inj h).symm

/-- C96 is false of `oty sharpen` with `--overwrite` when its output is one of its images. -/
theorem C96_sharpen_fails (proc : B → B) (mix : B → B → B) (pan ms : Text) (fs : Disk B) (p m : B) (hp : fs pan = some p)
    (hm : fs ms = some m) :
    ∃ fs', Executes proc mix true (.sharpen pan ms pan) fs fs' ∧ fs' pan = some (mix p m) :=
  ⟨_, .sharpen _ _ _ _ _ true (.done fs p m hp hm (Or.inl rfl)), Function.update_self ..⟩

/-- C96 is false of `--export-params` with `--overwrite` when the parameters are read from the files of an earlier export
in the same directory: any of these can be replaced. -/
theorem C96_params_fails (proc : B → B) (mix : B → B → B) (fs : Disk B) (b : B) (n : String)
    (hn : n ∈ ["int_param.yaml", "ext_param.geojson", "rpc_param.yaml", "gcps.geojson"]) :
    ∃ fs', Executes proc mix true (.params ["d/".toList ++ n.toList] "d".toList) fs fs' ∧
      fs' ("d/".toList ++ n.toList) = some b := by
  have hm : n.toList ∈ exportNames := by
    simp only [List.mem_cons, List.not_mem_nil, or_false] at hn
    rcases hn with rfl | rfl | rfl | rfl <;> decide +kernel
  refine ⟨_, .params _ _ _ _ (.step n.toList fs _ b hm (Or.inl rfl) (.stop _)), ?_⟩
  have : joinPath "d".toList n.toList = "d/".toList ++ n.toList := by
    rw [joinPath, if_neg (by decide +kernel)]
    rfl
  rw [this]
  exact Function.update_self ..

/-! Sources that are in the output directory. -/

example : (Command.ortho ["d/x.tif".toList, "d/y.tif".toList] ["dem.tif".toList] "d".toList).Apart :=
  C96_names _ _ _ (by
    intro p hp
    simp only [List.cons_append, List.nil_append, List.mem_cons, List.not_mem_nil, or_false] at hp
    rcases hp with rfl | rfl | rfl
    · exact ⟨"x.tif".toList, ⟨by decide, by decide, by decide, Or.inr ⟨"d".toList, by decide⟩⟩, by decide⟩
    · exact ⟨"y.tif".toList, ⟨by decide, by decide, by decide, Or.inr ⟨"d".toList, by decide⟩⟩, by decide⟩
    · exact ⟨"dem.tif".toList, ⟨by decide, by decide, by decide, Or.inl rfl⟩, by decide⟩)

/-- An execution that ends and replaces an earlier ortho. -/
example (fs : Disk ℕ) (h : fs "d/x.tif".toList = some 3) :
    ∃ fs', Executes (· + 1) (· + ·) true (.ortho ["d/x.tif".toList] [] "d".toList) fs fs' ∧
      fs' (orthoOf "d".toList "d/x.tif".toList) = some 4 :=
  ⟨_, .ortho _ _ _ _ _ true (.step _ _ fs _ 3 true h (Or.inl rfl) (.nil _)), Function.update_self ..⟩

end Verif.Cli.Inputs
