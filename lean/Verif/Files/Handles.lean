import Mathlib.Data.Set.Insert
import Mathlib.Data.List.Induction
import Mathlib.Tactic.Tauto

/-!
# C88: files that are opened are closed, and not used after
-/

set_option autoImplicit false

namespace Verif.Handles

/-! ## Model -/

/-- A file argument of a function: its role, and its position when there are many. -/
structure Name where
  role : String
  idx : ℕ
  deriving DecidableEq

/-- What is open: a file object of fsspec, or a dataset (or the file object of a text file). -/
inductive Part
  | obj
  | ds
  deriving DecidableEq

structure Handle where
  name : Name
  part : Part
  deriving DecidableEq

/-- How a file is given (orthority/common.py:278-330 and 376-401): as a path, URI or `OpenFile` of a text file or an image that GDAL opens itself, of an image that GDAL reads
from a file object of fsspec, or as an open dataset or file object of the caller. -/
inductive Kind
  | path
  | remote
  | given
  deriving DecidableEq

inductive Ev
  | opened (h : Handle)
  | closed (h : Handle)
  | used (h : Handle)
  deriving DecidableEq

abbrev Trace := List Ev

/-- What a function does with files.  `act` is any code that may use the files, any number of times, and may raise; `opn` is a call of `OpenRaster(...)` or
`Open(...)`, `within` is `with` such an object; `attempt` is `try` with a handler; `pool` is `with ThreadPoolExecutor()`, with the code in it
and the tasks that it submits (`executor.shutdown(wait=False)` does not change that leaving the `with` waits for all threads). -/
inductive Prog
  | act (xs : List Name)
  | seq (p q : Prog)
  | alt (p q : Prog)
  | loop (p : Prog)
  | opn (x : Name)
  | within (x : Name) (p : Prog)
  | attempt (p q : Prog)
  | fail
  | pool (p : Prog) (n : ℕ) (task : ℕ → Prog)

infixr:60 " ;; " => Prog.seq

/-- orthority/common.py:343-344 and 409-410 `__exit__`: the `ExitStack` closes what the constructor entered, last first. -/
def closes (κ : Name → Kind) (x : Name) : Trace :=
  match κ x with
  | .given => []
  | .path => [.closed ⟨x, .ds⟩]
  | .remote => [.closed ⟨x, .ds⟩, .closed ⟨x, .obj⟩]

/-- Interleavings of the traces of threads. -/
inductive Shuffle : List Trace → Trace → Prop
  | done {ts : List Trace} : (∀ t ∈ ts, t = []) → Shuffle ts []
  | step {l r : List Trace} {e : Ev} {t u : Trace} : Shuffle (l ++ t :: r) u → Shuffle (l ++ (e :: t) :: r) (e :: u)

/-- The traces of a function, and whether it raised.  `OpenRaster.__init__` (orthority/common.py:266-336): a dataset of the caller is tested; else it is opened, or not; an fsspec
file object is entered before the dataset is opened on it, and left as it is when that raises.  `Open.__init__` (orthority/common.py:367-404) is as for `path`.
Closing may raise, after which the rest is closed too.  Tasks of a pool may not be submitted when the code in it raises, else they
run until they end. -/
inductive Tr (κ : Name → Kind) : Prog → Trace → Bool → Prop
  | act {xs : List Name} {u : Trace} {r : Bool} : (∀ e ∈ u, ∃ x ∈ xs, e = .used ⟨x, .ds⟩) → Tr κ (.act xs) u r
  | seq {p q : Prog} {u v : Trace} {r : Bool} : Tr κ p u false → Tr κ q v r → Tr κ (.seq p q) (u ++ v) r
  | seqErr {p q : Prog} {u : Trace} : Tr κ p u true → Tr κ (.seq p q) u true
  | left {p q : Prog} {u : Trace} {r : Bool} : Tr κ p u r → Tr κ (.alt p q) u r
  | right {p q : Prog} {u : Trace} {r : Bool} : Tr κ q u r → Tr κ (.alt p q) u r
  | stop {p : Prog} : Tr κ (.loop p) [] false
  | again {p : Prog} {u v : Trace} {r : Bool} : Tr κ p u false → Tr κ (.loop p) v r → Tr κ (.loop p) (u ++ v) r
  | loopErr {p : Prog} {u : Trace} : Tr κ p u true → Tr κ (.loop p) u true
  | given {x : Name} {r : Bool} : κ x = .given → Tr κ (.opn x) [] r
  | refused {x : Name} : κ x ≠ .given → Tr κ (.opn x) [] true
  | path {x : Name} : κ x = .path → Tr κ (.opn x) [.opened ⟨x, .ds⟩] false
  | remote {x : Name} : κ x = .remote → Tr κ (.opn x) [.opened ⟨x, .obj⟩, .opened ⟨x, .ds⟩] false
  | remoteErr {x : Name} : κ x = .remote → Tr κ (.opn x) [.opened ⟨x, .obj⟩] true
  | within {x : Name} {p : Prog} {u : Trace} {r r' : Bool} : Tr κ p u r → (r = true → r' = true) → Tr κ (.within x p) (u ++ closes κ x) r'
  | tryOk {p q : Prog} {u : Trace} : Tr κ p u false → Tr κ (.attempt p q) u false
  | caught {p q : Prog} {u v : Trace} {r : Bool} : Tr κ p u true → Tr κ q v r → Tr κ (.attempt p q) (u ++ v) r
  | uncaught {p q : Prog} {u : Trace} : Tr κ p u true → Tr κ (.attempt p q) u true
  | fail : Tr κ .fail [] true
  | pool {p : Prog} {n : ℕ} {task : ℕ → Prog} {u w : Trace} {r : Bool} {ts : ℕ → Trace} {ran rs : ℕ → Bool} : Tr κ p u r →
      (∀ i < n, ran i = true → Tr κ (task i) (ts i) (rs i)) → (∀ i < n, ran i = false → r = true ∧ ts i = []) → Shuffle (u :: (List.range n).map ts) w → Tr κ (.pool p n task) w r

/-- `with OpenRaster(x, ...) as ...:` or `with Open(x, ...) as ...:`. -/
def Prog.file (x : Name) (p : Prog) : Prog := .opn x ;; .within x p

/-- `try: ctx = OpenRaster(x, ...)`, `except FileNotFoundError as ex: raise click.BadParameter(...)` (orthority/cli.py:327-330). -/
def Prog.opnCli (x : Name) : Prog := .attempt (.opn x) .fail

/-- A file that the function opens, or a dataset that its caller has open, which `OpenRaster` returns as it is. -/
def Prog.from (isOpen : Bool) (x : Name) (p : Prog) : Prog := if isOpen then .act [x] ;; p else .file x p

def nSrc : Name := ⟨"src", 0⟩
def nDem : Name := ⟨"dem", 0⟩
def nOut : Name := ⟨"out", 0⟩
def nPan : Name := ⟨"pan", 0⟩
def nMs : Name := ⟨"ms", 0⟩
def nVrt (i : ℕ) : Name := ⟨"vrt", i⟩
def nText : Name := ⟨"text", 0⟩
def nPrj : Name := ⟨"prj", 0⟩
def nIm (i : ℕ) : Name := ⟨"im", i⟩

/-- `Camera.read`, orthority/camera.py:313-317. -/
def cameraRead (x : Name) : Prog := .file x (.act [x])

/-- `Ortho.__init__`, orthority/ortho.py:85-105, with `_parse_crs` (112-125) and `_get_init_dem` (127-205). -/
def orthoInit (isOpen : Bool) : Prog :=
  .act [] ;; .alt (.act []) (.from isOpen nSrc (.act [nSrc])) ;; .from isOpen nDem (.act [nDem]) ;; .act []

/-- `Ortho._remap`, orthority/ortho.py:401-482: the code in the pool reads the source image, and each task writes a tile of the ortho. -/
def orthoRemap (n : ℕ) : Prog := .act [nOut] ;; .pool (.loop (.act [nSrc, nOut])) n fun _ => .act [nOut]

/-- `Ortho.process`, orthority/ortho.py:558-631.  Contexts that are entered one after the other in an `ExitStack` are written as nested `with` statements. -/
def orthoProcess (isOpen : Bool) (n : ℕ) : Prog :=
  .act [] ;; .from isOpen nSrc (.act [nSrc] ;; .file nOut (.act [nSrc, nOut] ;; orthoRemap n ;; .act [nOut]))

/-- `PanSharpen.__init__`, orthority/pan_sharp.py:69-79, with `_get_vrt_profiles` (82-184). -/
def sharpInit (isOpen : Bool) : Prog := .from isOpen nPan (.from isOpen nMs (.act [nPan, nMs]))

/-- `PanSharpen._get_stats`, orthority/pan_sharp.py:228-309; reading from a `WarpedVRT` reads from the dataset that it is of. -/
def sharpStats (n : ℕ) : Prog :=
  .act [nPan] ;; .file (nVrt 0) (.act [nMs] ;; .file (nVrt 1) (.pool (.act [nPan, nMs, nVrt 0, nVrt 1]) n fun _ => .act [nPan, nMs, nVrt 0, nVrt 1]))

/-- `PanSharpen.process`, orthority/pan_sharp.py:595-670. -/
def sharpProcess (isOpen : Bool) (n m : ℕ) : Prog :=
  .act [] ;; .from isOpen nPan (.from isOpen nMs (.act [nPan, nMs] ;; .file nOut (.act [nMs, nOut] ;; sharpStats n ;; .act [nPan] ;;
    .file (nVrt 2) (.act [nMs] ;; .file (nVrt 3)
      (.pool (.act [nOut]) m fun _ => .act [nPan, nMs, nVrt 2, nVrt 3, nOut])))))

/-- The readers of text files: orthority/param_io.py:215, 297, 406, 530, 1206 and 1382, and cli.py:151. -/
def readText : Prog := .file nText (.act [nText]) ;; .act []

/-- The functions that write text files: orthority/param_io.py:587-597, 621-645, 664-670 and 689-700. -/
def writeText : Prog := .act [] ;; .file nText (.act [nText])

/-- `CsvReader.__init__`, orthority/param_io.py:978-998, with `_get_crs` (1077-1112). -/
def csvInit : Prog := .file nText (.act [nText]) ;; .act [] ;; .alt (.act []) (.attempt (.file nPrj (.act [nPrj]) ;; .act []) (.alt (.act []) .fail))

/-- `read_im_rpc_param`, `read_im_gcps` and `ExifReader._read_exif` (orthority/param_io.py:332-394, 451-519, 1308-1332) of `n` images: tasks are
`_read_im_rpc_param` (348-369), `_read_im_gcps` (466-495) and `Exif.__init__` (orthority/exif.py:111-145). -/
def readImages (n : ℕ) : Prog := .pool (.act []) n fun i => .file (nIm i) (.act [nIm i]) ;; .act []

/-- `_read_crs`, orthority/cli.py:141-155. -/
def readCrs : Prog := .alt (.file nSrc (.act [nSrc])) (.alt readText (.act []))

/-- `_ortho`, orthority/cli.py:325-372, from the DEM on: the DEM and source images are opened once, `Ortho` has them as datasets. -/
def cliOrtho (n : ℕ) : Prog :=
  .opnCli nDem ;; .within nDem (.act [nDem] ;; .loop (.act [] ;; .opnCli nSrc ;; .within nSrc (.act [nSrc] ;; orthoInit true ;; orthoProcess true n)))

/-- `odm`, orthority/cli.py:851-890. -/
def cliOdm (n : ℕ) : Prog := (.opnCli nDem ;; .within nDem (.act [nDem])) ;; readText ;; cliOrtho n

/-- `sharpen`, orthority/cli.py:1174-1211: both images are opened before either is in a `with`. -/
def cliSharpen (n m : ℕ) : Prog :=
  .opnCli nPan ;; .opnCli nMs ;; .within nPan (.within nMs (.act [nPan, nMs] ;; sharpInit true ;; sharpProcess true n m))

/-- `_simple_ortho`, orthority/cli.py:1284-1371. -/
def simpleOrtho (n : ℕ) : Prog :=
  .attempt (.file nText (.act [nText]) ;; .alt (.file nPrj (.act [nPrj])) (.act [] ;; .file nText (.act [nText]) ;;
    .loop (.act [] ;; .file nSrc (.act [nSrc]) ;; .act [] ;; orthoInit false ;; orthoProcess false n))) .fail

/-- The functions that open files, for any numbers of tiles and images, apart from `sharpen`. -/
def library (n m : ℕ) : List Prog :=
  [cameraRead nSrc, orthoInit false, orthoProcess false n, sharpInit false, sharpProcess false n m, readText, writeText, csvInit, readImages n, readCrs,
    cliOrtho n, cliOdm n, simpleOrtho n]

/-! ## Specification -/

/-- `h` was opened in `u`, and not closed since. -/
def OpenAfter (u : Trace) (h : Handle) : Prop := ∃ a b, u = a ++ .opened h :: b ∧ .closed h ∉ b

/-- Files are used only while they are open, and are the caller's or were opened by the function; only files that the function opened are closed; and no dataset that it opened is left
open. -/
structure Clean (κ : Name → Kind) (u : Trace) : Prop where
  use : ∀ a b h, u = a ++ .used h :: b → κ h.name = .given ∨ OpenAfter a h
  close : ∀ a b h, u = a ++ .closed h :: b → OpenAfter a h
  notGiven : ∀ h, κ h.name = .given → Ev.opened h ∉ u
  fresh : ∀ a b x, u = a ++ .opened ⟨x, .ds⟩ :: b → ¬ OpenAfter a ⟨x, .ds⟩
  left : ∀ x, ¬ OpenAfter u ⟨x, .ds⟩

/-! ## Lemmas -/

/-- The open handles after an event. -/
def upd (S : Set Handle) : Ev → Set Handle
  | .opened h => insert h S
  | .closed h => S \ {h}
  | .used _ => S

def after (S : Set Handle) : Trace → Set Handle
  | [] => S
  | e :: u => after (upd S e) u

def Ev.handle : Ev → Handle
  | .opened h => h
  | .closed h => h
  | .used h => h

def Ev.touches : Ev → Bool
  | .used _ => false
  | _ => true

/-- An event is allowed. -/
def Fine (κ : Name → Kind) (S : Set Handle) : Ev → Prop
  | .opened h => κ h.name ≠ .given ∧ (h.part = .ds → h ∉ S)
  | .closed h => h ∈ S
  | .used h => κ h.name = .given ∨ h ∈ S

def Valid (κ : Name → Kind) (S : Set Handle) : Trace → Prop
  | [] => True
  | e :: u => Fine κ S e ∧ Valid κ (upd S e) u

theorem after_append (S : Set Handle) (u v : Trace) : after S (u ++ v) = after (after S u) v := by
  induction u generalizing S with
  | nil => rfl
  | cons e u ih => exact ih _

theorem valid_append {κ : Name → Kind} {S : Set Handle} {u v : Trace} : Valid κ S (u ++ v) ↔ Valid κ S u ∧ Valid κ (after S u) v := by
  induction u generalizing S with
  | nil => simp [Valid, after]
  | cons e u ih => simp only [List.cons_append, Valid, after, ih, and_assoc]

theorem mem_after (u : Trace) (h : Handle) : h ∈ after ∅ u ↔ OpenAfter u h := by
  induction u using List.reverseRecOn with
  | nil =>
    simp only [after, Set.mem_empty_iff_false, false_iff]
    rintro ⟨a, b, h1, -⟩
    simp at h1
  | append_singleton u e ih =>
    rw [after_append]
    have key : OpenAfter (u ++ [e]) h ↔ e = .opened h ∨ (OpenAfter u h ∧ e ≠ .closed h) := by
      constructor
      · rintro ⟨a, b, h1, h2⟩
        rcases List.eq_nil_or_concat b with rfl | ⟨b, e', rfl⟩
        · have := List.append_inj_right' h1 rfl
          left
          simpa using this
        · rw [List.concat_eq_append, show a ++ Ev.opened h :: (b ++ [e']) = (a ++ Ev.opened h :: b) ++ [e'] by simp] at h1
          have e1 := List.append_inj_left' h1 rfl
          have e2 := List.append_inj_right' h1 rfl
          simp only [List.cons.injEq, and_true] at e2
          subst e2
          simp only [List.concat_eq_append, List.mem_append, List.mem_singleton, not_or] at h2
          exact Or.inr ⟨⟨a, b, e1, h2.1⟩, fun h => h2.2 h.symm⟩
      · rintro (rfl | ⟨⟨a, b, rfl, h2⟩, h3⟩)
        · exact ⟨u, [], rfl, by simp⟩
        · exact ⟨a, b ++ [e], by simp, by
            simp only [List.mem_append, List.mem_singleton, not_or]
            exact ⟨h2, fun h => h3 h.symm⟩⟩
    rw [key, ← ih]
    cases e with
    | opened g =>
      simp only [after, upd, Set.mem_insert_iff, Ev.opened.injEq, ne_eq, reduceCtorEq, not_false_eq_true, and_true]
      tauto
    | closed g =>
      simp only [after, upd, Set.mem_sdiff, Set.mem_singleton_iff, reduceCtorEq, false_or, ne_eq, Ev.closed.injEq]
      tauto
    | used g => simp [after, upd]

theorem clean_of_valid {κ : Name → Kind} {u : Trace} (h : Valid κ ∅ u) (hl : ∀ x, (⟨x, .ds⟩ : Handle) ∉ after ∅ u) : Clean κ u := by
  have hf : ∀ a e b, u = a ++ e :: b → Fine κ (after ∅ a) e := by
    rintro a e b rfl
    exact (valid_append.1 h).2.1
  refine ⟨fun a b g hu => ?_, fun a b g hu => ?_, fun g hg hu => ?_, fun a b x hu => ?_, fun x => ?_⟩
  · rw [← mem_after]; exact hf a _ b hu
  · rw [← mem_after]; exact hf a _ b hu
  · obtain ⟨a, b, hu⟩ := List.append_of_mem hu
    exact (hf a _ b hu).1 hg
  · rw [← mem_after]; exact (hf a _ b hu).2 rfl
  · rw [← mem_after]; exact hl x

/-- What is known of all traces of `p`: with the files `Γ` open and the files `N` closed, it is valid, uses files of `Γ` and `N`, opens and closes files of `N`, and leaves the
datasets that are open as they were. -/
structure GoodTrace (κ : Name → Kind) (Γ N : Set Name) (u : Trace) : Prop where
  ment : ∀ e ∈ u, e.handle.name ∈ Γ ∪ N
  touch : ∀ e ∈ u, e.touches = true → e.handle.name ∈ N
  valid : ∀ S, (∀ x ∈ Γ, κ x = .given ∨ (⟨x, .ds⟩ : Handle) ∈ S) → (∀ x ∈ N, (⟨x, .ds⟩ : Handle) ∉ S) →
    Valid κ S u ∧ ∀ x, (⟨x, .ds⟩ : Handle) ∈ after S u ↔ (⟨x, .ds⟩ : Handle) ∈ S

def Good (κ : Name → Kind) (Γ N : Set Name) (p : Prog) : Prop := ∀ u r, Tr κ p u r → GoodTrace κ Γ N u

theorem GoodTrace.mono {κ : Name → Kind} {Γ Γ' N N' : Set Name} {u : Trace} (h : GoodTrace κ Γ N u) (h1 : Γ ⊆ Γ') (h2 : N ⊆ N') : GoodTrace κ Γ' N' u :=
  ⟨fun e he => (h.ment e he).imp (fun h => h1 h) fun h => h2 h, fun e he ht => h2 (h.touch e he ht),
    fun S hS hN => h.valid S (fun x hx => hS x (h1 hx)) fun x hx => hN x (h2 hx)⟩

theorem GoodTrace.nil {κ : Name → Kind} {Γ N : Set Name} : GoodTrace κ Γ N [] :=
  ⟨by simp, by simp, fun S _ _ => ⟨trivial, fun _ => Iff.rfl⟩⟩

theorem GoodTrace.append {κ : Name → Kind} {Γ N : Set Name} {u v : Trace} (hu : GoodTrace κ Γ N u) (hv : GoodTrace κ Γ N v) : GoodTrace κ Γ N (u ++ v) := by
  refine ⟨fun e he => ?_, fun e he => ?_, fun S hS hN => ?_⟩
  · rcases List.mem_append.1 he with h | h
    · exact hu.ment e h
    · exact hv.ment e h
  · rcases List.mem_append.1 he with h | h
    · exact hu.touch e h
    · exact hv.touch e h
  · obtain ⟨a1, a2⟩ := hu.valid S hS hN
    obtain ⟨b1, b2⟩ := hv.valid (after S u) (fun x hx => (hS x hx).imp_right (a2 x).2) fun x hx h => hN x hx ((a2 x).1 h)
    exact ⟨valid_append.2 ⟨a1, b1⟩, fun x => by rw [after_append, b2, a2]⟩

theorem good_act {κ : Name → Kind} {Γ N : Set Name} {xs : List Name} (h : ∀ x ∈ xs, x ∈ Γ) : Good κ Γ N (.act xs) := by
  rintro u r ht
  cases ht with
  | act hu =>
    induction u with
    | nil => exact GoodTrace.nil
    | cons e u ih =>
      obtain ⟨x, hx, rfl⟩ := hu e List.mem_cons_self
      have ih := ih fun e he => hu e (List.mem_cons_of_mem _ he)
      refine ⟨fun e he => ?_, fun e he ht => ?_, fun S hS hN => ?_⟩
      · rcases List.mem_cons.1 he with rfl | he
        · exact Or.inl (h x hx)
        · exact ih.ment e he
      · rcases List.mem_cons.1 he with rfl | he
        · cases ht
        · exact ih.touch e he ht
      · obtain ⟨a1, a2⟩ := ih.valid S hS hN
        exact ⟨⟨hS x (h x hx), a1⟩, a2⟩

theorem good_seq {κ : Name → Kind} {Γ N : Set Name} {p q : Prog} (hp : Good κ Γ N p) (hq : Good κ Γ N q) : Good κ Γ N (p ;; q) := by
  intro u r h
  cases h with
  | seq h1 h2 => exact (hp _ _ h1).append (hq _ _ h2)
  | seqErr h1 => exact hp _ _ h1

theorem good_alt {κ : Name → Kind} {Γ N : Set Name} {p q : Prog} (hp : Good κ Γ N p) (hq : Good κ Γ N q) : Good κ Γ N (.alt p q) := by
  intro u r h
  cases h with
  | left h1 => exact hp _ _ h1
  | right h1 => exact hq _ _ h1

theorem good_fail {κ : Name → Kind} {Γ N : Set Name} : Good κ Γ N .fail := by
  intro u r h
  cases h
  exact GoodTrace.nil

theorem good_attempt {κ : Name → Kind} {Γ N : Set Name} {p q : Prog} (hp : Good κ Γ N p) (hq : Good κ Γ N q) : Good κ Γ N (.attempt p q) := by
  intro u r h
  cases h with
  | tryOk h1 => exact hp _ _ h1
  | caught h1 h2 => exact (hp _ _ h1).append (hq _ _ h2)
  | uncaught h1 => exact hp _ _ h1

theorem good_loop {κ : Name → Kind} {Γ N : Set Name} {p : Prog} (hp : Good κ Γ N p) : Good κ Γ N (.loop p) := by
  intro u r h
  generalize hq : Prog.loop p = q at h
  induction h with
  | stop => exact GoodTrace.nil
  | again h1 _ _ ih =>
    cases hq
    exact (hp _ _ h1).append (ih rfl)
  | loopErr h1 _ =>
    cases hq
    exact hp _ _ h1
  | _ => cases hq

/-- `q` opens `x`, as a call of `OpenRaster` does. -/
def Opens (κ : Name → Kind) (x : Name) (q : Prog) : Prop := ∀ (u : Trace) (r : Bool), Tr κ q u r → Tr κ (.opn x) u r

theorem opens_opn (κ : Name → Kind) (x : Name) : Opens κ x (.opn x) := fun _ _ h => h

theorem opens_cli (κ : Name → Kind) (x : Name) : Opens κ x (.opnCli x) := by
  intro u r h
  cases h with
  | tryOk h => exact h
  | caught h1 h2 =>
    cases h2
    rwa [List.append_nil]
  | uncaught h => exact h

theorem keep_after {S : Set Handle} {u : Trace} {h : Handle} (hu : ∀ e ∈ u, e.touches = true → e.handle ≠ h) (hS : h ∈ S) : h ∈ after S u := by
  induction u generalizing S with
  | nil => exact hS
  | cons e u ih =>
    refine ih (fun e he => hu e (List.mem_cons_of_mem _ he)) ?_
    cases e with
    | opened g => exact Set.mem_insert_of_mem _ hS
    | closed g => exact ⟨hS, fun h => hu _ List.mem_cons_self rfl (show g = _ from (Set.mem_singleton_iff.1 h).symm)⟩
    | used g => exact hS

theorem good_file {κ : Name → Kind} {Γ N : Set Name} {x : Name} {p q : Prog} (hx : x ∉ Γ) (hN : x ∈ N) (hq : Opens κ x q)
    (hp : Good κ (insert x Γ) (N \ {x}) p) : Good κ Γ N (q ;; .within x p) := by
  have base : ∀ v r, Tr κ (.opn x) v r → r = true → GoodTrace κ Γ N v := by
    intro v r h hr
    subst hr
    cases h with
    | given => exact GoodTrace.nil
    | refused => exact GoodTrace.nil
    | remoteErr hk =>
      refine ⟨?_, ?_, fun S hS hN' => ⟨⟨⟨by rw [hk]; decide, by simp⟩, trivial⟩, fun y => by simp [after, upd]⟩⟩ <;>
        · simp only [List.mem_singleton, forall_eq]; simp [Ev.handle, hN]
  intro u r h
  cases h with
  | seqErr h1 => exact base _ _ (hq _ _ h1) rfl
  | @seq _ _ v w _ h1 h2 =>
    cases h2 with
    | @within _ _ w r1 _ h3 _ =>
      have hg := hp _ _ h3
      have hsub : ∀ e ∈ w, e.handle.name ∈ Γ ∪ N := by
        intro e he
        rcases hg.ment e he with h | h
        · rcases Set.mem_insert_iff.1 h with h | h
          · exact Or.inr (h ▸ hN)
          · exact Or.inl h
        · exact Or.inr h.1
      have htouch : ∀ e ∈ w, e.touches = true → e.handle.name ∈ N := fun e he ht => (hg.touch e he ht).1
      have hopen := hq _ _ h1
      have hneN : ∀ S : Set Handle, (∀ y ∈ N, (⟨y, .ds⟩ : Handle) ∉ S) → ∀ y ∈ N \ {x}, (⟨y, .ds⟩ : Handle) ∉ S :=
        fun S hS y hy => hS y hy.1
      cases hopen with
      | given hk =>
        have hc : closes κ x = [] := by simp [closes, hk]
        rw [hc, List.append_nil, List.nil_append]
        refine ⟨hsub, htouch, fun S hS hN' => hg.valid S ?_ (hneN S hN')⟩
        intro y hy
        rcases Set.mem_insert_iff.1 hy with rfl | hy
        · exact Or.inl hk
        · exact hS y hy
      | path hk =>
        have hc : closes κ x = [.closed ⟨x, .ds⟩] := by simp [closes, hk]
        rw [hc]
        refine ⟨?_, ?_, fun S hS hN' => ?_⟩
        · intro e he
          simp only [List.cons_append, List.nil_append, List.mem_cons, List.mem_append, List.not_mem_nil, or_false] at he
          rcases he with rfl | he | rfl
          · exact Or.inr hN
          · exact hsub e he
          · exact Or.inr hN
        · intro e he ht
          simp only [List.cons_append, List.nil_append, List.mem_cons, List.mem_append, List.not_mem_nil, or_false] at he
          rcases he with rfl | he | rfl
          · exact hN
          · exact htouch e he ht
          · exact hN
        · obtain ⟨a1, a2⟩ := hg.valid (insert ⟨x, .ds⟩ S) (fun y hy => by
              rcases Set.mem_insert_iff.1 hy with rfl | hy
              · exact Or.inr (Set.mem_insert _ _)
              · exact (hS y hy).imp_right fun h => Set.mem_insert_of_mem _ h)
            (fun y hy h => by
              rcases Set.mem_insert_iff.1 h with h | h
              · exact hy.2 (by simpa using h)
              · exact hN' y hy.1 h)
          rw [List.singleton_append]
          refine ⟨⟨⟨by rw [hk]; decide, fun _ => hN' x hN⟩, valid_append.2 ⟨a1, ⟨?_, trivial⟩⟩⟩, fun y => ?_⟩
          · exact (a2 x).2 (Set.mem_insert _ _)
          · simp only [after, upd, after_append, Set.mem_sdiff, Set.mem_singleton_iff]
            rw [a2 y]
            simp only [Set.mem_insert_iff]
            by_cases hxy : y = x
            · subst hxy
              simp [hN' y hN]
            · simp [hxy]
      | remote hk =>
        have hc : closes κ x = [.closed ⟨x, .ds⟩, .closed ⟨x, .obj⟩] := by simp [closes, hk]
        rw [hc]
        refine ⟨?_, ?_, fun S hS hN' => ?_⟩
        · intro e he
          simp only [List.cons_append, List.nil_append, List.mem_cons, List.mem_append, List.not_mem_nil, or_false] at he
          rcases he with rfl | rfl | he | rfl | rfl
          · exact Or.inr hN
          · exact Or.inr hN
          · exact hsub e he
          · exact Or.inr hN
          · exact Or.inr hN
        · intro e he ht
          simp only [List.cons_append, List.nil_append, List.mem_cons, List.mem_append, List.not_mem_nil, or_false] at he
          rcases he with rfl | rfl | he | rfl | rfl
          · exact hN
          · exact hN
          · exact htouch e he ht
          · exact hN
          · exact hN
        · obtain ⟨a1, a2⟩ := hg.valid (insert ⟨x, .ds⟩ (insert ⟨x, .obj⟩ S)) (fun y hy => by
              rcases Set.mem_insert_iff.1 hy with rfl | hy
              · exact Or.inr (Set.mem_insert _ _)
              · exact (hS y hy).imp_right fun h => Set.mem_insert_of_mem _ (Set.mem_insert_of_mem _ h))
            (fun y hy h => by
              rcases Set.mem_insert_iff.1 h with h | h
              · exact hy.2 (by simpa using h)
              · rcases Set.mem_insert_iff.1 h with h | h
                · cases h
                · exact hN' y hy.1 h)
          have hobj : (⟨x, .obj⟩ : Handle) ∈ after (insert ⟨x, .ds⟩ (insert ⟨x, .obj⟩ S)) w :=
            keep_after (fun e he ht h => (hg.touch e he ht).2 (by rw [h]; rfl)) (by simp)
          rw [List.cons_append, List.singleton_append]
          refine ⟨⟨⟨by rw [hk]; decide, by simp⟩, ⟨by rw [hk]; decide, fun _ h => ?_⟩, valid_append.2 ⟨a1, ⟨?_, ⟨?_, trivial⟩⟩⟩⟩, fun y => ?_⟩
          · rcases Set.mem_insert_iff.1 h with h | h
            · cases h
            · exact hN' x hN h
          · exact (a2 x).2 (Set.mem_insert _ _)
          · exact ⟨hobj, by simp⟩
          · simp only [after, upd, after_append, Set.mem_sdiff, Set.mem_singleton_iff]
            rw [a2 y]
            simp only [Set.mem_insert_iff]
            by_cases hxy : y = x
            · subst hxy
              simp [hN' y hN]
            · simp [hxy]

/-! ### Pools -/

theorem after_congr {S S' : Set Handle} {M : Set Name} (h : ∀ g : Handle, g.name ∈ M → (g ∈ S ↔ g ∈ S')) (u : Trace) :
    ∀ g : Handle, g.name ∈ M → (g ∈ after S u ↔ g ∈ after S' u) := by
  induction u generalizing S S' with
  | nil => exact h
  | cons e u ih =>
    refine ih fun g hg => ?_
    cases e with
    | opened k => simp only [upd, Set.mem_insert_iff, h g hg]
    | closed k => simp only [upd, Set.mem_sdiff, h g hg]
    | used k => exact h g hg

theorem valid_congr {κ : Name → Kind} {S S' : Set Handle} {M : Set Name} {u : Trace} (hu : ∀ e ∈ u, e.handle.name ∈ M)
    (h : ∀ g : Handle, g.name ∈ M → (g ∈ S ↔ g ∈ S')) (hv : Valid κ S u) : Valid κ S' u := by
  induction u generalizing S S' with
  | nil => trivial
  | cons e u ih =>
    have he := hu e List.mem_cons_self
    refine ⟨?_, ih (fun e he => hu e (List.mem_cons_of_mem _ he)) (after_congr h [e]) hv.2⟩
    cases e with
    | opened k => exact ⟨hv.1.1, fun hp hk => hv.1.2 hp ((h k he).2 hk)⟩
    | closed k => exact (h k he).1 hv.1
    | used k => exact hv.1.imp_right (h k he).1

theorem upd_other {S : Set Handle} {e : Ev} {g : Handle} (h : e.touches = true → e.handle.name ≠ g.name) : g ∈ upd S e ↔ g ∈ S := by
  cases e with
  | opened k =>
    have : g ≠ k := fun hg => h rfl (by rw [hg]; rfl)
    simp [upd, this]
  | closed k =>
    have : g ≠ k := fun hg => h rfl (by rw [hg]; rfl)
    simp [upd, this]
  | used k => rfl

theorem shuffle_mem {ts : List Trace} {w : Trace} (h : Shuffle ts w) : ∀ e ∈ w, ∃ t ∈ ts, e ∈ t := by
  induction h with
  | done => simp
  | @step l r e t u _ ih =>
    intro e' he'
    rcases List.mem_cons.1 he' with rfl | he'
    · exact ⟨e' :: t, by simp, by simp⟩
    · obtain ⟨t', ht', hm⟩ := ih e' he'
      simp only [List.mem_append, List.mem_cons] at ht'
      rcases ht' with h | rfl | h
      · exact ⟨t', by simp [h], hm⟩
      · exact ⟨e :: t', by simp, by simp [hm]⟩
      · exact ⟨t', by simp [h], hm⟩

/-- A thread that has the files `N` for itself. -/
structure ThreadOk (κ : Name → Kind) (Γ N : Set Name) (S : Set Handle) (t : Trace) : Prop where
  ment : ∀ e ∈ t, e.handle.name ∈ Γ ∪ N
  touch : ∀ e ∈ t, e.touches = true → e.handle.name ∈ N
  valid : Valid κ S t
  apart : ∀ x ∈ Γ, x ∉ N

theorem shuffle_valid {κ : Name → Kind} {Γ : Set Name} {ts : List Trace} {w : Trace} (hw : Shuffle ts w) :
    ∀ (zs : List (Trace × Set Name)) (S : Set Handle), ts = zs.map Prod.fst → zs.Pairwise (fun a b => ∀ x ∈ a.2, x ∉ b.2) →
      (∀ z ∈ zs, ThreadOk κ Γ z.2 S z.1) →
      Valid κ S w ∧ (∀ g : Handle, (∀ z ∈ zs, g.name ∉ z.2) → (g ∈ after S w ↔ g ∈ S)) ∧
        ∀ z ∈ zs, ∀ g : Handle, g.name ∈ z.2 → (g ∈ after S w ↔ g ∈ after S z.1) := by
  induction hw with
  | done hd =>
    intro zs S hts hp hz
    refine ⟨trivial, fun g _ => Iff.rfl, fun z hzm g _ => ?_⟩
    rw [hd z.1 (hts ▸ List.mem_map_of_mem hzm)]
  | @step l r e t u _ ih =>
    intro zs S hts hp hz
    obtain ⟨zl, zr, rfl, hl, hr⟩ := List.map_eq_append_iff.1 hts.symm
    obtain ⟨z0, zr, rfl, h0, hr'⟩ := List.map_eq_cons_iff.1 hr
    obtain ⟨t0, N0⟩ := z0
    simp only at h0
    subst h0
    have hz0 := hz ⟨e :: t, N0⟩ (by simp)
    have hothers : ∀ z ∈ zl ++ zr, ∀ x ∈ N0, x ∉ z.2 := by
      intro z hzm x hx
      rw [List.pairwise_append] at hp
      rcases List.mem_append.1 hzm with h | h
      · exact fun hxz => hp.2.2 z h _ List.mem_cons_self x hxz hx
      · exact (List.pairwise_cons.1 hp.2.1).1 z h x hx
    have htouch : e.touches = true → e.handle.name ∈ N0 := hz0.touch e List.mem_cons_self
    have hagree : ∀ g : Handle, g.name ∉ N0 → (g ∈ S ↔ g ∈ upd S e) := fun g hg =>
      (upd_other fun ht h => hg (h ▸ htouch ht)).symm
    have hz' : ∀ z ∈ zl ++ (t, N0) :: zr, ThreadOk κ Γ z.2 (upd S e) z.1 := by
      intro z hzm
      simp only [List.mem_append, List.mem_cons] at hzm
      have hoth : z ∈ zl ++ zr → ThreadOk κ Γ z.2 (upd S e) z.1 := by
        intro hzm
        have h := hz z (by simp only [List.mem_append, List.mem_cons] at hzm ⊢; tauto)
        refine ⟨h.ment, h.touch, valid_congr h.ment (fun g hg => hagree g ?_) h.valid, h.apart⟩
        rcases hg with hg | hg
        · exact hz0.apart _ hg
        · exact fun h => hothers z hzm _ h hg
      rcases hzm with h | rfl | h
      · exact hoth (by simp [h])
      · exact ⟨fun e he => hz0.ment e (List.mem_cons_of_mem _ he), fun e he => hz0.touch e (List.mem_cons_of_mem _ he), hz0.valid.2, hz0.apart⟩
      · exact hoth (by simp [h])
    have hp' : (zl ++ (t, N0) :: zr).Pairwise (fun a b => ∀ x ∈ a.2, x ∉ b.2) := by
      rw [List.pairwise_append, List.pairwise_cons] at hp ⊢
      refine ⟨hp.1, ⟨hp.2.1.1, hp.2.1.2⟩, fun a ha b hb => ?_⟩
      rcases List.mem_cons.1 hb with rfl | hb
      · exact hp.2.2 a ha (e :: t, N0) List.mem_cons_self
      · exact hp.2.2 a ha b (List.mem_cons_of_mem _ hb)
    obtain ⟨a1, a2, a3⟩ := ih (zl ++ (t, N0) :: zr) (upd S e) (by simp [hl, hr']) hp' hz'
    refine ⟨⟨hz0.valid.1, ?_⟩, fun g hg => ?_, fun z hzm g hg => ?_⟩
    · exact a1
    · rw [show after S (e :: u) = after (upd S e) u from rfl, a2 g ?_]
      · exact (hagree g (hg (e :: t, N0) (by simp))).symm
      · intro z hzm
        simp only [List.mem_append, List.mem_cons] at hzm
        rcases hzm with h | rfl | h
        · exact hg z (by simp [h])
        · exact hg (e :: t, N0) (by simp)
        · exact hg z (by simp [h])
    · have hoth : z ∈ zl ++ zr → (g ∈ after S (e :: u) ↔ g ∈ after S z.1) := by
        intro hzm
        rw [show after S (e :: u) = after (upd S e) u from rfl,
          a3 z (by simp only [List.mem_append, List.mem_cons] at hzm ⊢; tauto) g hg]
        exact (after_congr (M := z.2) (fun g hg => hagree g fun h => hothers z hzm _ h hg) z.1 g hg).symm
      simp only [List.mem_append, List.mem_cons] at hzm
      rcases hzm with h | rfl | h
      · exact hoth (by simp [h])
      · exact a3 (t, N0) (by simp) g hg
      · exact hoth (by simp [h])

theorem good_pool {κ : Name → Kind} {Γ N N0 : Set Name} {Nt : ℕ → Set Name} {p : Prog} {n : ℕ} {task : ℕ → Prog} (hp : Good κ Γ N0 p)
    (ht : ∀ i < n, Good κ Γ (Nt i) (task i)) (hΓ : ∀ x ∈ Γ, x ∉ N) (h0 : N0 ⊆ N) (hi : ∀ i < n, Nt i ⊆ N) (h0i : ∀ i < n, ∀ x ∈ N0, x ∉ Nt i)
    (hij : ∀ i j, i < j → j < n → ∀ x ∈ Nt i, x ∉ Nt j) : Good κ Γ N (.pool p n task) := by
  intro w r h
  cases h with
  | @pool _ _ _ u _ _ ts ran rs hu hran hnot hs =>
    have hg0 := hp _ _ hu
    have hgi : ∀ i < n, GoodTrace κ Γ (Nt i) (ts i) := by
      intro i hin
      cases hr : ran i with
      | true => exact ht i hin _ _ (hran i hin hr)
      | false =>
        rw [(hnot i hin hr).2]
        exact GoodTrace.nil
    let zs : List (Trace × Set Name) := (u, N0) :: (List.range n).map fun i => (ts i, Nt i)
    have hzs : u :: (List.range n).map ts = zs.map Prod.fst := by simp [zs, Function.comp_def]
    have hgz : ∀ z ∈ zs, GoodTrace κ Γ z.2 z.1 ∧ z.2 ⊆ N := by
      intro z hz
      rcases List.mem_cons.1 hz with rfl | hz
      · exact ⟨hg0, h0⟩
      · obtain ⟨i, hin, rfl⟩ := List.mem_map.1 hz
        exact ⟨hgi i (List.mem_range.1 hin), hi i (List.mem_range.1 hin)⟩
    have hmem : ∀ e ∈ w, ∃ z ∈ zs, e ∈ z.1 := by
      intro e he
      obtain ⟨t, ht, hm⟩ := shuffle_mem hs e he
      rw [hzs] at ht
      obtain ⟨z, hz, rfl⟩ := List.mem_map.1 ht
      exact ⟨z, hz, hm⟩
    refine ⟨fun e he => ?_, fun e he htc => ?_, fun S hS hN => ?_⟩
    · obtain ⟨z, hz, hm⟩ := hmem e he
      exact ((hgz z hz).1.ment e hm).imp_right fun h => (hgz z hz).2 h
    · obtain ⟨z, hz, hm⟩ := hmem e he
      exact (hgz z hz).2 ((hgz z hz).1.touch e hm htc)
    · have hv : ∀ z ∈ zs, Valid κ S z.1 ∧ ∀ x, (⟨x, .ds⟩ : Handle) ∈ after S z.1 ↔ (⟨x, .ds⟩ : Handle) ∈ S := fun z hz =>
        (hgz z hz).1.valid S hS fun x hx => hN x ((hgz z hz).2 hx)
      obtain ⟨a1, a2, a3⟩ := shuffle_valid hs zs S hzs (by
          refine List.pairwise_cons.2 ⟨fun z hz => ?_, ?_⟩
          · obtain ⟨i, hin, rfl⟩ := List.mem_map.1 hz
            exact h0i i (List.mem_range.1 hin)
          · rw [List.pairwise_map]
            refine (List.pairwise_lt_range (n := n)).imp_of_mem fun {i j} _ hj hlt => ?_
            exact hij i j hlt (List.mem_range.1 hj))
        fun z hz => ⟨(hgz z hz).1.ment, (hgz z hz).1.touch, (hv z hz).1, fun x hx hxz => hΓ x hx ((hgz z hz).2 hxz)⟩
      refine ⟨a1, fun x => ?_⟩
      by_cases hx : ∃ z ∈ zs, x ∈ z.2
      · obtain ⟨z, hz, hxz⟩ := hx
        rw [a3 z hz _ hxz, (hv z hz).2]
      · exact a2 _ fun z hz hxz => hx ⟨z, hz, hxz⟩

/-! ### The functions -/

/-- With the files `Γ` open, and all others closed. -/
abbrev Keeps (κ : Name → Kind) (Γ : List Name) (p : Prog) : Prop := Good κ {x | x ∈ Γ} {x | x ∉ Γ} p

theorem keeps_file {κ : Name → Kind} {Γ : List Name} {x : Name} {p q : Prog} (hq : Opens κ x q) (hx : x ∉ Γ) (hp : Keeps κ (x :: Γ) p) :
    Keeps κ Γ (q ;; .within x p) := by
  refine good_file hx hx hq fun u r h => (hp u r h).mono ?_ ?_
  · intro y hy
    simpa using hy
  · intro y hy
    simp only [Set.mem_ofPred_eq, List.mem_cons, not_or] at hy
    exact ⟨hy.2, hy.1⟩

theorem keeps_open {κ : Name → Kind} {Γ : List Name} {x : Name} {p : Prog} (hx : x ∉ Γ) (hp : Keeps κ (x :: Γ) p) : Keeps κ Γ (.file x p) :=
  keeps_file (opens_opn κ x) hx hp

theorem keeps_act {κ : Name → Kind} {Γ : List Name} {xs : List Name} (h : xs ⊆ Γ) : Keeps κ Γ (.act xs) := good_act fun _ hx => h hx

theorem keeps_pool {κ : Name → Kind} {Γ : List Name} {p : Prog} {n : ℕ} {xs : List Name} (hp : Keeps κ Γ p) (h : xs ⊆ Γ) :
    Keeps κ Γ (.pool p n fun _ => .act xs) :=
  good_pool (Nt := fun _ => ∅) hp (fun _ _ => good_act fun _ hx => h hx) (fun _ hx hn => hn hx) (fun _ hx => hx) (fun _ _ _ hx => absurd hx (Set.notMem_empty _))
    (fun _ _ _ _ => Set.notMem_empty _) fun _ _ _ _ _ _ => Set.notMem_empty _

theorem keeps_orthoInit (κ : Name → Kind) : Keeps κ [] (orthoInit false) :=
  good_seq (keeps_act (by decide)) (good_seq (good_alt (keeps_act (by decide)) (keeps_open (by decide) (keeps_act (by decide))))
    (good_seq (keeps_open (by decide) (keeps_act (by decide))) (keeps_act (by decide))))

theorem keeps_orthoInit_open (κ : Name → Kind) : Keeps κ [nSrc, nDem] (orthoInit true) :=
  good_seq (keeps_act (by decide)) (good_seq (good_alt (keeps_act (by decide)) (good_seq (keeps_act (by decide)) (keeps_act (by decide))))
    (good_seq (good_seq (keeps_act (by decide)) (keeps_act (by decide))) (keeps_act (by decide))))

theorem keeps_orthoRemap (κ : Name → Kind) {Γ : List Name} (h : [nSrc, nOut] ⊆ Γ) (n : ℕ) : Keeps κ Γ (orthoRemap n) := by
  have ho : [nOut] ⊆ Γ := fun x hx => h (List.mem_cons_of_mem _ hx)
  exact good_seq (keeps_act ho) (keeps_pool (good_loop (keeps_act h)) ho)

theorem keeps_orthoProcess (κ : Name → Kind) (n : ℕ) : Keeps κ [] (orthoProcess false n) :=
  good_seq (keeps_act (by decide)) (keeps_open (by decide) (good_seq (keeps_act (by decide)) (keeps_open (by decide)
    (good_seq (keeps_act (by decide)) (good_seq (keeps_orthoRemap κ (by decide) n) (keeps_act (by decide)))))))

theorem keeps_orthoProcess_open (κ : Name → Kind) (n : ℕ) : Keeps κ [nSrc, nDem] (orthoProcess true n) :=
  good_seq (keeps_act (by decide)) (good_seq (keeps_act (by decide)) (good_seq (keeps_act (by decide)) (keeps_open (by decide)
    (good_seq (keeps_act (by decide)) (good_seq (keeps_orthoRemap κ (by decide) n) (keeps_act (by decide)))))))

theorem keeps_sharpStats (κ : Name → Kind) (n : ℕ) : Keeps κ [nOut, nMs, nPan] (sharpStats n) :=
  good_seq (keeps_act (by decide)) (keeps_open (by decide) (good_seq (keeps_act (by decide)) (keeps_open (by decide)
    (keeps_pool (keeps_act (by decide)) (by decide)))))

theorem keeps_sharpInit (κ : Name → Kind) : Keeps κ [] (sharpInit false) :=
  keeps_open (by decide) (keeps_open (by decide) (keeps_act (by decide)))

/-- The part of `process` with both images open. -/
theorem keeps_sharpBody (κ : Name → Kind) (n m : ℕ) : Keeps κ [nMs, nPan] (.act [nPan, nMs] ;; .file nOut (.act [nMs, nOut] ;; sharpStats n ;; .act [nPan] ;;
    .file (nVrt 2) (.act [nMs] ;; .file (nVrt 3)
      (.pool (.act [nOut]) m fun _ => .act [nPan, nMs, nVrt 2, nVrt 3, nOut])))) :=
  good_seq (keeps_act (by decide)) (keeps_open (by decide) (good_seq (keeps_act (by decide)) (good_seq (keeps_sharpStats κ n)
    (good_seq (keeps_act (by decide)) (keeps_open (by decide) (good_seq (keeps_act (by decide)) (keeps_open (by decide)
      (keeps_pool (keeps_act (by decide)) (by decide)))))))))

theorem keeps_sharpProcess (κ : Name → Kind) (n m : ℕ) : Keeps κ [] (sharpProcess false n m) :=
  good_seq (keeps_act (by decide)) (keeps_open (by decide) (keeps_open (by decide) (keeps_sharpBody κ n m)))

theorem keeps_sharpProcess_open (κ : Name → Kind) (n m : ℕ) : Keeps κ [nMs, nPan] (sharpProcess true n m) :=
  good_seq (keeps_act (by decide)) (good_seq (keeps_act (by decide)) (good_seq (keeps_act (by decide)) (keeps_sharpBody κ n m)))

theorem keeps_readText (κ : Name → Kind) : Keeps κ [] readText :=
  good_seq (keeps_open (by decide) (keeps_act (by decide))) (keeps_act (by decide))

theorem keeps_readImages (κ : Name → Kind) (n : ℕ) : Keeps κ [] (readImages n) := by
  refine good_pool (N0 := ∅) (Nt := fun i => {nIm i}) (good_act fun _ hx => absurd hx List.not_mem_nil) (fun i _ => ?_) (fun x hx _ => absurd hx List.not_mem_nil)
    (fun _ hx => absurd hx (Set.notMem_empty _)) (fun _ _ _ _ => List.not_mem_nil) (fun _ _ _ hx => absurd hx (Set.notMem_empty _))
    fun i j hij _ x hi hj => ?_
  · exact good_seq (good_file List.not_mem_nil rfl (opens_opn _ _) (good_act fun x hx => Or.inl (List.mem_singleton.1 hx)))
      (good_act fun _ hx => absurd hx List.not_mem_nil)
  · have h1 : x = nIm i := hi
    have h2 : x = nIm j := hj
    rw [h1] at h2
    have := congrArg Name.idx h2
    exact absurd this (Nat.ne_of_lt hij)

theorem keeps_cliOrtho (κ : Name → Kind) (n : ℕ) : Keeps κ [] (cliOrtho n) :=
  keeps_file (opens_cli κ _) (by decide) (good_seq (keeps_act (by decide)) (good_loop (good_seq (keeps_act (by decide))
    (keeps_file (opens_cli κ _) (by decide) (good_seq (keeps_act (by decide)) (good_seq (keeps_orthoInit_open κ) (keeps_orthoProcess_open κ n)))))))

theorem keeps_library (κ : Name → Kind) (n m : ℕ) : ∀ p ∈ library n m, Keeps κ [] p := by
  simp only [library, List.forall_mem_cons, List.not_mem_nil, false_imp_iff, implies_true, and_true]
  refine ⟨?_, keeps_orthoInit κ, keeps_orthoProcess κ n, keeps_sharpInit κ, keeps_sharpProcess κ n m, keeps_readText κ, ?_, ?_, keeps_readImages κ n, ?_,
    keeps_cliOrtho κ n, ?_, ?_⟩
  · exact keeps_open (by decide) (keeps_act (by decide))
  · exact good_seq (keeps_act (by decide)) (keeps_open (by decide) (keeps_act (by decide)))
  · exact good_seq (keeps_open (by decide) (keeps_act (by decide))) (good_seq (keeps_act (by decide)) (good_alt (keeps_act (by decide))
      (good_attempt (good_seq (keeps_open (by decide) (keeps_act (by decide))) (keeps_act (by decide))) (good_alt (keeps_act (by decide)) good_fail))))
  · exact good_alt (keeps_open (by decide) (keeps_act (by decide))) (good_alt (keeps_readText κ) (keeps_act (by decide)))
  · exact good_seq (keeps_file (opens_cli κ _) (by decide) (keeps_act (by decide))) (good_seq (keeps_readText κ) (keeps_cliOrtho κ n))
  · exact good_attempt (good_seq (keeps_open (by decide) (keeps_act (by decide))) (good_alt (keeps_open (by decide) (keeps_act (by decide)))
      (good_seq (keeps_act (by decide)) (good_seq (keeps_open (by decide) (keeps_act (by decide))) (good_loop (good_seq (keeps_act (by decide))
        (good_seq (keeps_open (by decide) (keeps_act (by decide))) (good_seq (keeps_act (by decide)) (good_seq (keeps_orthoInit κ) (keeps_orthoProcess κ n)))))))))) good_fail

theorem clean_of_keeps {κ : Name → Kind} {p : Prog} (hp : Keeps κ [] p) {u : Trace} {r : Bool} (h : Tr κ p u r) : Clean κ u := by
  obtain ⟨h1, h2⟩ := (hp u r h).valid ∅ (fun x hx => absurd hx List.not_mem_nil) fun _ _ => Set.notMem_empty _
  exact clean_of_valid h1 fun x hx => Set.notMem_empty _ ((h2 x).1 hx)

theorem obj_remote {κ : Name → Kind} {p : Prog} {u : Trace} {r : Bool} (h : Tr κ p u r) : ∀ x, Ev.opened ⟨x, .obj⟩ ∈ u → κ x = .remote := by
  induction h with
  | act hu =>
    intro x hx
    obtain ⟨y, _, hy⟩ := hu _ hx
    cases hy
  | seq _ _ ih1 ih2 => exact fun x hx => (List.mem_append.1 hx).elim (ih1 x) (ih2 x)
  | seqErr _ ih => exact ih
  | left _ ih => exact ih
  | right _ ih => exact ih
  | stop => simp
  | again _ _ ih1 ih2 => exact fun x hx => (List.mem_append.1 hx).elim (ih1 x) (ih2 x)
  | loopErr _ ih => exact ih
  | given => simp
  | refused => simp
  | path => simp
  | remote hk =>
    intro x hx
    simp only [List.mem_cons, Ev.opened.injEq, Handle.mk.injEq, and_true, reduceCtorEq, and_false, List.not_mem_nil, or_false] at hx
    rw [hx, hk]
  | remoteErr hk =>
    intro x hx
    simp only [List.mem_cons, Ev.opened.injEq, Handle.mk.injEq, and_true, List.not_mem_nil, or_false] at hx
    rw [hx, hk]
  | within _ _ ih =>
    intro x hx
    refine (List.mem_append.1 hx).elim (ih x) fun h => ?_
    unfold closes at h
    split at h <;> simp at h
  | tryOk _ ih => exact ih
  | caught _ _ ih1 ih2 => exact fun x hx => (List.mem_append.1 hx).elim (ih1 x) (ih2 x)
  | uncaught _ ih => exact ih
  | fail => simp
  | @pool p n task u w r ts ran rs _ _ hnot hs ih1 ih2 =>
    intro x hx
    obtain ⟨t, ht, hm⟩ := shuffle_mem hs _ hx
    rcases List.mem_cons.1 ht with rfl | ht
    · exact ih1 x hm
    · obtain ⟨i, hi, rfl⟩ := List.mem_map.1 ht
      cases hr : ran i with
      | true => exact ih2 i (List.mem_range.1 hi) hr x hm
      | false =>
        rw [(hnot i (List.mem_range.1 hi) hr).2] at hm
        cases hm

theorem left_remote {κ : Name → Kind} {p : Prog} {u : Trace} {r : Bool} (h : Tr κ p u r) (hc : Clean κ u) (g : Handle) (hg : OpenAfter u g) :
    g.part = .obj ∧ κ g.name = .remote := by
  obtain ⟨x, part⟩ := g
  cases part with
  | ds => exact absurd hg (hc.left x)
  | obj =>
    obtain ⟨a, b, hu, -⟩ := hg
    exact ⟨rfl, obj_remote h x (hu ▸ by simp)⟩

/-! ## Theorems -/

/-- C88: in every execution of a function that opens files, whatever it raises and however its threads interleave, files are used only while open, the caller's files are not closed, and
every dataset or text file that was opened is closed.  Only an fsspec file object, of a remote image, may be left open. -/
theorem C88_closed_partial (κ : Name → Kind) (n m : ℕ) (p : Prog) (hp : p ∈ library n m) (u : Trace) (raised : Bool) (h : Tr κ p u raised) :
    Clean κ u ∧ ∀ g, OpenAfter u g → g.part = .obj ∧ κ g.name = .remote :=
  have hc := clean_of_keeps (keeps_library κ n m p hp) h
  ⟨hc, left_remote h hc⟩

theorem opened_of_file {κ : Name → Kind} {x : Name} {p : Prog} {u : Trace} (hx : κ x ≠ .given) (h : Tr κ (.file x p) u false) : Ev.opened ⟨x, .ds⟩ ∈ u := by
  cases h with
  | seq h1 _ =>
    refine List.mem_append_left _ ?_
    cases h1 with
    | given hk => exact absurd hk hx
    | path => simp
    | remote => simp

theorem within_file {κ : Name → Kind} {x : Name} {p : Prog} {u : Trace} (h : Tr κ (.file x p) u false) : ∃ v, v ⊆ u ∧ Tr κ p v false := by
  cases h with
  | seq _ h =>
    generalize hr : false = r at h
    cases h with
    | @within _ _ v r _ h h' =>
      subst hr
      cases r with
      | true => exact absurd (h' rfl) (by decide)
      | false => exact ⟨v, fun e he => by simp [he], h⟩

theorem used_between {κ : Name → Kind} {u : Trace} (hc : Clean κ u) {x : Name} (hx : κ x ≠ .given) (ho : .opened ⟨x, .ds⟩ ∈ u) :
    ∃ a b c, u = a ++ .opened ⟨x, .ds⟩ :: b ++ .closed ⟨x, .ds⟩ :: c ∧ .used ⟨x, .ds⟩ ∉ a ∧ .used ⟨x, .ds⟩ ∉ c := by
  obtain ⟨a, v, hu, ha⟩ := List.eq_append_cons_of_mem ho
  have hcl : Ev.closed ⟨x, .ds⟩ ∈ v := by
    by_contra hn
    exact hc.left x ⟨a, v, hu, hn⟩
  obtain ⟨c', b', hv, hc'⟩ := List.eq_append_cons_of_mem (List.mem_reverse.2 hcl)
  have hv' : v = b'.reverse ++ Ev.closed ⟨x, .ds⟩ :: c'.reverse := by
    rw [← List.reverse_reverse v, hv]
    simp
  refine ⟨a, b'.reverse, c'.reverse, by rw [hu, hv']; simp, fun hm => ?_, fun hm => ?_⟩
  · obtain ⟨a1, a2, rfl⟩ := List.append_of_mem hm
    rcases hc.use a1 (a2 ++ Ev.opened ⟨x, .ds⟩ :: v) ⟨x, .ds⟩ (by rw [hu]; simp) with h | ⟨s, t, rfl, _⟩
    · exact hx h
    · exact ha (by simp)
  · obtain ⟨c1, c2, hcc⟩ := List.append_of_mem hm
    have hu' : u = (a ++ Ev.opened ⟨x, .ds⟩ :: (b'.reverse ++ Ev.closed ⟨x, .ds⟩ :: c1)) ++ Ev.used ⟨x, .ds⟩ :: c2 := by
      rw [hu, hv', hcc]
      simp
    rcases hc.use _ _ _ hu' with h | h
    · exact hx h
    · obtain ⟨s, t, hst, ht⟩ := h
      refine hc.left x ⟨s, t ++ Ev.used ⟨x, .ds⟩ :: c2, by rw [hu', hst]; simp, ?_⟩
      have h2 : Ev.closed ⟨x, .ds⟩ ∉ c'.reverse := fun h => hc' (List.mem_reverse.1 h)
      rw [hcc] at h2
      simp only [List.mem_append, List.mem_cons, not_or, reduceCtorEq, not_false_eq_true, true_and] at h2 ⊢
      exact ⟨ht, h2.2⟩

/-- C88: when `Ortho.process` returns, the ortho was opened, all that its threads did with it was done while it was open, and it is closed. -/
theorem C88_process (κ : Name → Kind) (n : ℕ) (u : Trace) (ho : κ nOut ≠ .given) (h : Tr κ (orthoProcess false n) u false) :
    ∃ a b c, u = a ++ .opened ⟨nOut, .ds⟩ :: b ++ .closed ⟨nOut, .ds⟩ :: c ∧ .used ⟨nOut, .ds⟩ ∉ a ∧ .used ⟨nOut, .ds⟩ ∉ c := by
  refine used_between (C88_closed_partial κ n 0 _ (by simp [library]) u _ h).1 ho ?_
  cases h with
  | seq _ h =>
    obtain ⟨v, hv, h⟩ := within_file h
    cases h with
    | seq _ h => exact List.mem_append_right _ (hv (List.mem_append_right _ (opened_of_file ho h)))

/-- C88: when `PanSharpen.process` returns, the same is true of its output. -/
theorem C88_sharp_process (κ : Name → Kind) (n m : ℕ) (u : Trace) (ho : κ nOut ≠ .given) (h : Tr κ (sharpProcess false n m) u false) :
    ∃ a b c, u = a ++ .opened ⟨nOut, .ds⟩ :: b ++ .closed ⟨nOut, .ds⟩ :: c ∧ .used ⟨nOut, .ds⟩ ∉ a ∧ .used ⟨nOut, .ds⟩ ∉ c := by
  refine used_between (C88_closed_partial κ n m _ (by simp [library]) u _ h).1 ho ?_
  cases h with
  | seq _ h =>
    obtain ⟨v, hv, h⟩ := within_file h
    obtain ⟨w, hw, h⟩ := within_file h
    cases h with
    | seq _ h => exact List.mem_append_right _ (hv (hw (List.mem_append_right _ (opened_of_file ho h))))

/-- The file object of a remote image is left open when GDAL cannot open it (orthority/common.py:312-330): `OpenRaster.__init__` raises before there is an object to leave. -/
theorem C88_remote_fails (κ : Name → Kind) (h : κ nSrc = .remote) : ∃ u, Tr κ (cameraRead nSrc) u true ∧ OpenAfter u ⟨nSrc, .obj⟩ :=
  ⟨[.opened ⟨nSrc, .obj⟩], .seqErr (.remoteErr h), [], [], rfl, by simp⟩

/-- `sharpen` leaves the panchromatic image open when the multispectral image cannot be opened (orthority/cli.py:1174-1185). -/
theorem C88_sharpen_fails (κ : Name → Kind) (n m : ℕ) (hp : κ nPan = .path) (hm : κ nMs = .path) :
    ∃ u, Tr κ (cliSharpen n m) u true ∧ OpenAfter u ⟨nPan, .ds⟩ :=
  ⟨[.opened ⟨nPan, .ds⟩] ++ [], .seq (.tryOk (.path hp)) (.seqErr (.uncaught (.refused (by rw [hm]; decide)))), [], [], rfl, by simp⟩

/-- `sharpen` closes its files once both images are open. -/
theorem C88_sharpen_partial (κ : Name → Kind) (n m : ℕ) (u : Trace) (raised : Bool) (h : Tr κ (cliSharpen n m) u raised)
    (hu : .opened ⟨nMs, .ds⟩ ∈ u) : Clean κ u ∧ ∀ g, OpenAfter u g → g.part = .obj ∧ κ g.name = .remote := by
  have key : Clean κ u := by
    have hne : ∀ {v : Trace} {r : Bool}, Tr κ (.opn nPan) v r → Ev.opened ⟨nMs, .ds⟩ ∉ v := by
      intro v r hv hmem
      cases hv <;> simp [nPan, nMs] at hmem
    cases h with
    | seqErr h1 => exact absurd hu (hne (opens_cli κ _ _ _ h1))
    | seq h1 h2 =>
      cases h2 with
      | seqErr h3 =>
        rcases List.mem_append.1 hu with h | h
        · exact absurd h (hne (opens_cli κ _ _ _ h1))
        · have := opens_cli κ _ _ _ h3
          cases this <;> simp at h
      | seq h3 h4 =>
        cases h4 with
        | within h5 hr =>
          cases h5 with
          | within h6 hr' =>
            have ht : Tr κ (.opnCli nPan ;; .within nPan (.opnCli nMs ;; .within nMs (.act [nPan, nMs] ;; sharpInit true ;; sharpProcess true n m))) _ _ :=
              .seq h1 (.within (.seq h3 (.within h6 hr')) hr)
            rw [List.append_assoc] at ht
            refine clean_of_keeps ?_ ht
            exact keeps_file (opens_cli κ _) (by decide) (keeps_file (opens_cli κ _) (by decide) (good_seq (keeps_act (by decide))
              (good_seq (good_seq (keeps_act (by decide)) (good_seq (keeps_act (by decide)) (keeps_act (by decide)))) (keeps_sharpProcess_open κ n m))))
  exact ⟨key, left_remote h key⟩

/-- An ortho of the caller's dataset with two tiles, each of which its thread writes twice, in turn; and an exception in the last line. -/
example : let κ : Name → Kind := fun x => if x = nSrc then .given else .path
    let w : Ev := .used ⟨nOut, .ds⟩
    let u : Trace := [.opened ⟨nOut, .ds⟩, .used ⟨nSrc, .ds⟩, w, w, w, w, .closed ⟨nOut, .ds⟩]
    Tr κ (orthoProcess false 2) u true ∧ Clean κ u ∧ Shuffle [[], [w, w], [w, w]] [w, w, w, w] := by
  intro κ w u
  have hs : Shuffle [[.used ⟨nSrc, .ds⟩], [w, w], [w, w]] [.used ⟨nSrc, .ds⟩, w, w, w, w] := by
    refine .step (l := []) (.step (l := [[]]) (.step (l := [[], [w]]) (.step (l := [[]]) (.step (l := [[], []]) (.done (by simp))))))
  have hact : ∀ {xs : List Name} {r : Bool}, Tr κ (.act xs) [] r := .act (by simp)
  have ht : Tr κ (orthoProcess false 2) u true := by
    refine .seq (u := []) hact (.seq (u := []) (.given (by simp [κ])) ?_)
    refine Tr.within (u := u) (r := true) ?_ (fun h => h)
    refine .seq (u := []) hact (.seq (u := [.opened ⟨nOut, .ds⟩]) (.path (by decide)) ?_)
    refine Tr.within (u := [.used ⟨nSrc, .ds⟩, w, w, w, w]) (r := true) ?_ (fun h => h)
    refine .seq (u := []) hact (Tr.seq (u := [.used ⟨nSrc, .ds⟩, w, w, w, w]) (v := []) (Tr.seq (u := []) hact ?_) hact)
    refine .pool (ts := fun _ => [w, w]) (ran := fun _ => true) (rs := fun _ => false)
      (.again (u := [.used ⟨nSrc, .ds⟩]) (v := []) (.act (by simp)) .stop) ?_ (by simp) hs
    exact fun i _ _ => .act (by simp [w])
  refine ⟨ht, (C88_closed_partial κ 2 0 _ (by simp [library]) _ _ ht).1, ?_⟩
  exact .step (l := [[]]) (.step (l := [[], [w]]) (.step (l := [[]]) (.step (l := [[], []]) (.done (by simp)))))

end Verif.Handles
