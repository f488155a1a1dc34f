import Mathlib.Data.List.Basic
import Mathlib.Data.List.Infix
import Mathlib.Logic.Function.Basic
import Mathlib.Order.Lattice
import Mathlib.Algebra.Order.Ring.Int

/-!
# C109: messages of commands

`_configure_logging` (orthority/cli.py:102-138) sends warnings of orthority to the loggers of its modules, and gives the logger of the
package a handler and a level; `cli` (594-606) sends what is logged through `tqdm.write`.  All this changes globals of the process.

Modelled: `warnings.showwarning`, the handlers and levels of loggers, and what is written to which stream.  Streams are objects (numbers),
`sys.stderr` and `sys.stdout` are bound to two of them.  Text is a list of characters; file names are absolute POSIX paths, as lists of
their parts.  The standard library (`logging`, with `propagate` and `disable` as they are by default) and `tqdm.contrib.logging` are
modelled as they are written.  Not modelled: the filters and the registry that decide which warnings are shown at all (C97 is about the
filters).
-/

set_option autoImplicit false

namespace Verif.Cli.Logging

abbrev Text := List Char

/-- The name of a logger, as the parts between its dots; the root logger has no parts. -/
abbrev Name := List Text

/-! ## Model -/

/-- What is written: a line in the format of orthority/cli.py:136, the message alone (a handler without format), or a warning as Python
shows it. -/
inductive Line
  | log (level : ℤ) (name : Name) (msg : Text)
  | plain (msg : Text)
  | warning (category : Text) (file : List Text) (line : ℕ) (msg : Text)
  deriving DecidableEq

/-- A `logging.StreamHandler` (orthority/cli.py:135-136), or the handler of `tqdm.contrib.logging`, that is one too: its stream, and
whether it has the format of line 136.  The level of all of them is 0. -/
structure Handler where
  stream : ℕ
  format : Bool
  deriving DecidableEq

/-- Globals of the process: the streams, levels (none for `NOTSET`) and handlers of loggers, and how many times
`warnings.showwarning` has been replaced (orthority/cli.py:128). -/
structure Proc where
  stdout : ℕ
  stderr : ℕ
  level : Name → Option ℤ
  handlers : Name → List Handler
  shows : ℕ

/-- A logger and those that it passes records to, in order (`Logger.parent`). -/
def ancestors (n : Name) : List Name := (List.range (n.length + 1)).reverse.map n.take

/-- `Logger.getEffectiveLevel`. -/
def effLevel (p : Proc) (n : Name) : ℤ := ((ancestors n).findSome? p.level).getD 0

/-- What a handler writes. -/
def Handler.emit (h : Handler) (level : ℤ) (n : Name) (msg : Text) : ℕ × Line :=
  (h.stream, if h.format then .log level n msg else .plain msg)

/-- `Logger.callHandlers`; a record without handlers goes to `logging.lastResort`. -/
def callHandlers (p : Proc) (n : Name) (level : ℤ) (msg : Text) : List (ℕ × Line) :=
  match (ancestors n).flatMap p.handlers with
  | [] => if 30 ≤ level then [(p.stderr, .plain msg)] else []
  | hs => hs.map fun h => h.emit level n msg

/-- `Logger.log`. -/
def log (p : Proc) (n : Name) (level : ℤ) (msg : Text) : List (ℕ × Line) :=
  if effLevel p n ≤ level then callHandlers p n level msg else []

/-- The parts of a text between dots. -/
def splitDot : Text → List Text
  | [] => [[]]
  | c :: s => if c = '.' then [] :: splitDot s else
    match splitDot s with
    | [] => [[c]]
    | w :: ws => (c :: w) :: ws

/-- `with_suffix('')` of the last part of a path (orthority/cli.py:122); a part that begins or ends with its last dot has no suffix. -/
def noSuffix (s : Text) : Text :=
  match s.reverse.findIdx? (· = '.') with
  | none => s
  | some k => if 0 < k ∧ k + 1 < s.length then s.take (s.length - (k + 1)) else s

/-- `module_name`, orthority/cli.py:122, as the name of a logger: slashes become dots. -/
def moduleName (rel : List Text) : Name :=
  rel.dropLast.flatMap splitDot ++ (rel.getLast?.map fun s => splitDot (noSuffix s)).getD []

/-- A warning as `warnings.showwarning` gets it: `stream` is its argument `file`. -/
structure Warning where
  category : Text
  file : List Text
  line : ℕ
  msg : Text
  stream : Option ℕ

/-- `warnings.showwarning` when it has been replaced `k` times, orthority/cli.py:106-125.  `cli` is the path of orthority/cli.py: its
`parents[1]` is the path without the last two parts (line 111). -/
def showWarning (cli : List Text) (p : Proc) (w : Warning) : ℕ → List (ℕ × Line)
  | 0 => [(w.stream.getD p.stderr, .warning w.category w.file w.line w.msg)]
  | k + 1 =>
    let root := cli.dropLast.dropLast
    if w.stream.isSome ∨ ¬ root <+: w.file then showWarning cli p w k
    else log p (moduleName (w.file.drop root.length)) 30 w.msg

/-- The name of the logger of the package, orthority/cli.py:134. -/
def pkg : Name := ["orthority".toList]

/-- orthority/cli.py:102-138 `_configure_logging`. -/
def configure (p : Proc) (verbosity : ℤ) : Proc :=
  { p with
    shows := p.shows + 1
    handlers := Function.update p.handlers pkg (p.handlers pkg ++ [⟨p.stderr, true⟩])
    level := Function.update p.level pkg (some (max 10 (20 - 10 * verbosity))) }

/-- `_is_console_logging_handler` of `tqdm.contrib.logging`. -/
def Proc.console (p : Proc) (h : Handler) : Bool := decide (h.stream = p.stdout ∨ h.stream = p.stderr)

/-- `logging_redirect_tqdm([pkg_logger])`, orthority/cli.py:606: handlers that write to the console are replaced by one, with the stream
and format of the first of them. -/
def redirect (p : Proc) : Proc :=
  { p with handlers := Function.update p.handlers pkg ((p.handlers pkg).filter (fun h => !p.console h) ++
      [((p.handlers pkg).find? p.console).getD ⟨p.stderr, false⟩]) }

/-- The process while a command runs, orthority/cli.py:598-606: `-v` and `-q` are counted. -/
def during (p : Proc) (verbose quiet : ℕ) : Proc := redirect (configure p (verbose - quiet))

/-- The process after the command: the handlers of before line 606 are put back, `showwarning`, the handler and the level stay. -/
def after (p : Proc) (verbose quiet : ℕ) : Proc := configure p (verbose - quiet)

/-- The process after several commands, with their numbers of `-v` and `-q`. -/
def afterAll (p : Proc) : List (ℕ × ℕ) → Proc
  | [] => p
  | c :: cs => afterAll (after p c.1 c.2) cs

/-- The process while and after the legacy command runs, orthority/cli.py:1266-1268: `verbosity` is what argparse gives for `-v`
(1405-1411), none when the option is not given, as it has no default there.  Nothing goes through tqdm. -/
def legacy (p : Proc) : Option ℤ → Proc
  | some v => configure p (2 - v)
  | none => p

/-- What a message or warning writes. -/
inductive Event
  | log (name : Name) (level : ℤ) (msg : Text)
  | warning (w : Warning)

def written (cli : List Text) (p : Proc) : Event → List (ℕ × Line)
  | .log n l m => log p n l m
  | .warning w => showWarning cli p w p.shows

/-! ## Specification -/

/-- A process that has not used logging: only the root logger has a level, that of warnings. -/
structure Fresh (p : Proc) : Prop where
  level : ∀ n, p.level n = if n = [] then some 30 else none
  handlers : ∀ n, p.handlers n = []
  shows : p.shows = 0

/-- The logger is that of the package or of one of its modules. -/
def OfPkg (n : Name) : Prop := pkg <+: n

/-- The level that `-v` and `-q` ask for: INFO (20), and one step of 10 less for each `-v`, more for each `-q`, but at least DEBUG
(10). -/
def Asked (verbose quiet : ℕ) (level : ℤ) : Prop := 10 ≤ level ∧ 20 + 10 * quiet ≤ level + 10 * verbose

/-- The file is a module of the package: in the directory of cli.py, or below. -/
def InPkg (cli file : List Text) : Prop := ∃ dir m, cli = dir ++ ["orthority".toList, "cli.py".toList] ∧
  file = dir ++ "orthority".toList :: m ∧ m ≠ []

/-! ## Lemmas -/

theorem mem_ancestors {n m : Name} : m ∈ ancestors n ↔ m <+: n := by
  unfold ancestors
  simp only [List.mem_map, List.mem_reverse, List.mem_range]
  constructor
  · rintro ⟨k, -, rfl⟩
    exact List.take_prefix k n
  · intro h
    exact ⟨m.length, Nat.lt_succ_of_le h.length_le, (List.prefix_iff_eq_take.1 h).symm⟩

theorem ancestors_split {n : Name} (h : OfPkg n) : ∃ l, ancestors n = l ++ [pkg, []] ∧ ∀ m ∈ l, pkg <+: m ∧ m ≠ pkg := by
  obtain ⟨t, rfl⟩ := h
  refine ⟨((List.range t.length).map fun k => (pkg ++ t).take (k + 2)).reverse, ?_, ?_⟩
  · unfold ancestors
    have : (pkg ++ t).length + 1 = 2 + t.length := by simp [pkg]; omega
    rw [this, List.range_add, List.reverse_append, List.map_append, List.map_reverse, List.map_map]
    congr 1
    refine congrArg List.reverse (List.map_congr_left fun k _ => ?_)
    simp [Function.comp, Nat.add_comm]
  · intro m hm
    simp only [List.mem_reverse, List.mem_map, List.mem_range] at hm
    obtain ⟨k, hk, rfl⟩ := hm
    have e : (pkg ++ t).take (k + 2) = pkg ++ t.take (k + 1) := by
      simp [pkg]
    rw [e]
    refine ⟨List.prefix_append _ _, fun h => ?_⟩
    have := congrArg List.length h
    rw [List.length_append, List.length_take] at this
    omega

/-- What a logger of the package has, when only the logger of the package and the root logger have levels, and only that of the package
has handlers. -/
structure Plain (p : Proc) (lv : ℤ) (hs : List Handler) : Prop where
  level : ∀ n, n ≠ pkg → p.level n = if n = [] then some 30 else none
  handlers : ∀ n, n ≠ pkg → p.handlers n = []
  pkgLevel : p.level pkg = some lv
  pkgHandlers : p.handlers pkg = hs

theorem pkg_ne : pkg ≠ [] := by simp [pkg]

theorem Plain.eff {p : Proc} {lv : ℤ} {hs : List Handler} (h : Plain p lv hs) {n : Name} (hn : OfPkg n) : effLevel p n = lv := by
  obtain ⟨l, hl, hm⟩ := ancestors_split hn
  unfold effLevel
  have : l.findSome? p.level = none := by
    rw [List.findSome?_eq_none_iff]
    intro m hm'
    obtain ⟨h1, h2⟩ := hm m hm'
    rw [h.level m h2, if_neg]
    rintro rfl
    simp [pkg] at h1
  rw [hl, List.findSome?_append, this]
  simp [h.pkgLevel]

theorem Plain.hs {p : Proc} {lv : ℤ} {hs : List Handler} (h : Plain p lv hs) {n : Name} (hn : OfPkg n) :
    (ancestors n).flatMap p.handlers = hs := by
  obtain ⟨l, hl, hm⟩ := ancestors_split hn
  have : l.flatMap p.handlers = [] := by
    rw [List.flatMap_eq_nil_iff]
    intro m hm'
    exact h.handlers m (hm m hm').2
  rw [hl, List.flatMap_append, this]
  simp [h.pkgHandlers, h.handlers [] pkg_ne.symm]

theorem Plain.log {p : Proc} {lv : ℤ} {hs : List Handler} (h : Plain p lv hs) (hne : hs ≠ []) {n : Name} (hn : OfPkg n) (l : ℤ) (m : Text) :
    log p n l m = if lv ≤ l then hs.map fun x => x.emit l n m else [] := by
  unfold Logging.log callHandlers
  rw [h.eff hn, h.hs hn]
  cases hs with
  | nil => exact absurd rfl hne
  | cons a t => rfl

theorem configure_plain {p : Proc} {lv : ℤ} {hs : List Handler} (h : Plain p lv hs ∨ Fresh p ∧ hs = []) (v : ℤ) :
    Plain (configure p v) (max 10 (20 - 10 * v)) (hs ++ [⟨p.stderr, true⟩]) := by
  have h1 : ∀ n, n ≠ pkg → p.level n = if n = [] then some 30 else none := by
    rcases h with h | ⟨h, -⟩
    · exact h.level
    · exact fun n _ => h.level n
  have h2 : ∀ n, n ≠ pkg → p.handlers n = [] := by
    rcases h with h | ⟨h, -⟩
    · exact h.handlers
    · exact fun n _ => h.handlers n
  have h3 : p.handlers pkg = hs := by
    rcases h with h | ⟨h, rfl⟩
    · exact h.pkgHandlers
    · exact h.handlers pkg
  refine ⟨fun n hn => ?_, fun n hn => ?_, ?_, ?_⟩
  · simp only [configure, Function.update_of_ne hn]; exact h1 n hn
  · simp only [configure, Function.update_of_ne hn]; exact h2 n hn
  · simp [configure]
  · simp [configure, h3]

theorem redirect_plain {p : Proc} {lv : ℤ} {hs : List Handler} (h : Plain p lv hs) :
    Plain (redirect p) lv (hs.filter (fun x => !p.console x) ++ [(hs.find? p.console).getD ⟨p.stderr, false⟩]) := by
  refine ⟨fun n hn => h.level n hn, fun n hn => ?_, h.pkgLevel, ?_⟩
  · simp only [redirect, Function.update_of_ne hn]; exact h.handlers n hn
  · simp [redirect, h.pkgHandlers]

theorem afterAll_fields (p : Proc) (cs : List (ℕ × ℕ)) : (afterAll p cs).stdout = p.stdout ∧ (afterAll p cs).stderr = p.stderr ∧
    (afterAll p cs).shows = p.shows + cs.length := by
  induction cs generalizing p with
  | nil => simp [afterAll]
  | cons c cs ih =>
    obtain ⟨h1, h2, h3⟩ := ih (after p c.1 c.2)
    refine ⟨h1, h2, h3.trans ?_⟩
    simp [after, configure]
    omega

theorem afterAll_plain {p : Proc} (h : Fresh p) (cs : List (ℕ × ℕ)) : (cs = [] ∧ afterAll p cs = p) ∨
    ∃ c, cs.getLast? = some c ∧
      Plain (afterAll p cs) (max 10 (20 - 10 * ((c.1 : ℤ) - c.2))) (List.replicate cs.length ⟨p.stderr, true⟩) := by
  have gen : ∀ (cs : List (ℕ × ℕ)) (q : Proc) (k : ℕ) (lv : ℤ), q.stderr = p.stderr →
      Plain q lv (List.replicate k ⟨p.stderr, true⟩) → ∀ c, cs.getLast? = some c →
      Plain (afterAll q cs) (max 10 (20 - 10 * ((c.1 : ℤ) - c.2))) (List.replicate (k + cs.length) ⟨p.stderr, true⟩) := by
    intro cs
    induction cs with
    | nil => intro q k lv _ _ c hc; cases hc
    | cons a t ih =>
      intro q k lv hq hpl c hc
      have := configure_plain (.inl hpl) (a.1 - a.2)
      rw [hq, ← List.replicate_succ'] at this
      cases t with
      | nil =>
        simp only [List.getLast?_singleton, Option.some.injEq] at hc
        subst hc
        exact this
      | cons b t =>
        have := ih (after q a.1 a.2) (k + 1) _ hq this c (by simpa [List.getLast?_cons_cons] using hc)
        simpa [afterAll, Nat.add_comm, Nat.add_left_comm, Nat.add_assoc] using this
  cases cs with
  | nil => exact .inl ⟨rfl, rfl⟩
  | cons a t =>
    right
    have h1 := configure_plain (.inr ⟨h, rfl⟩) ((a.1 : ℤ) - a.2) (lv := 0)
    cases t with
    | nil => exact ⟨a, rfl, h1⟩
    | cons b t =>
      obtain ⟨c, hc⟩ : ∃ c, (b :: t).getLast? = some c := ⟨_, List.getLast?_eq_some_getLast (by simp)⟩
      refine ⟨c, by simpa [List.getLast?_cons_cons] using hc, ?_⟩
      have := gen (b :: t) (after p a.1 a.2) 1 _ rfl h1 c hc
      simpa [afterAll, Nat.add_comm, Nat.add_left_comm, Nat.add_assoc] using this

/-- The handlers of the package while a command runs, after others in the same process: one. -/
theorem during_plain {p : Proc} (h : Fresh p) (cs : List (ℕ × ℕ)) (v q : ℕ) :
    Plain (during (afterAll p cs) v q) (max 10 (20 - 10 * ((v : ℤ) - q))) [⟨p.stderr, true⟩] := by
  have hs := (afterAll_fields p cs).2.1
  have key : ∀ k : ℕ, Plain (configure (afterAll p cs) (v - q)) (max 10 (20 - 10 * ((v : ℤ) - q))) (List.replicate (k + 1) ⟨p.stderr, true⟩) →
      Plain (during (afterAll p cs) v q) (max 10 (20 - 10 * ((v : ℤ) - q))) [⟨p.stderr, true⟩] := by
    intro k hk
    have := redirect_plain hk
    have hc : (configure (afterAll p cs) (v - q)).console ⟨p.stderr, true⟩ = true := by
      simp [Proc.console, configure, hs]
    unfold during
    simpa [List.filter_replicate, List.find?_replicate, hc] using this
  rcases afterAll_plain h cs with ⟨-, e⟩ | ⟨c, -, e⟩
  · rw [e]
    refine key 0 ?_ |> fun h => by rw [e] at h; exact h
    rw [e]
    exact configure_plain (.inr ⟨h, rfl⟩) _ (lv := 0)
  · have := configure_plain (.inl e) ((v : ℤ) - q)
    rw [hs, ← List.replicate_succ'] at this
    exact key _ this

theorem asked_iff (v q : ℕ) (l : ℤ) : max 10 (20 - 10 * ((v : ℤ) - q)) ≤ l ↔ Asked v q l := by
  unfold Asked
  rw [max_le_iff]
  omega

theorem splitDot_orthority : splitDot "orthority".toList = pkg := by decide +kernel

theorem moduleName_pkg {m : List Text} (hm : m ≠ []) : OfPkg (moduleName ("orthority".toList :: m)) := by
  unfold moduleName OfPkg
  rw [List.dropLast_cons_of_ne_nil hm, List.flatMap_cons, splitDot_orthority, List.append_assoc]
  exact List.prefix_append _ _

theorem show_pkg {cli : List Text} {w : Warning} (hw : InPkg cli w.file) (hs : w.stream = none) (p : Proc) (k : ℕ) :
    ∃ n, OfPkg n ∧ showWarning cli p w (k + 1) = log p n 30 w.msg := by
  obtain ⟨dir, m, rfl, hf, hm⟩ := hw
  refine ⟨_, moduleName_pkg hm, ?_⟩
  have hroot : (dir ++ ["orthority".toList, "cli.py".toList]).dropLast.dropLast = dir := by
    rw [List.dropLast_append_of_ne_nil (by simp)]
    simp
  simp only [showWarning]
  rw [hroot, hs, hf, if_neg (by simp [List.prefix_append]), List.drop_left]

theorem show_other {cli : List Text} {w : Warning} (hw : ¬ cli.dropLast.dropLast <+: w.file) (p : Proc) (k : ℕ) :
    showWarning cli p w k = [(w.stream.getD p.stderr, .warning w.category w.file w.line w.msg)] := by
  induction k with
  | zero => rfl
  | succ k ih => simp only [showWarning]; rw [if_pos (.inr hw), ih]

/-! ## Theorems -/

/-- C109: while a command runs, a message that a module of orthority logs is written to stderr once, with its level and the name of its
logger, if its level is one that `-v` and `-q` ask for, and else it is not written; whatever commands have been run in the same process,
with the same streams. -/
theorem C109_messages (cli : List Text) {p : Proc} (h : Fresh p) (cs : List (ℕ × ℕ)) (v q : ℕ) {n : Name} (hn : OfPkg n) (l : ℤ) (m : Text) :
    (Asked v q l → written cli (during (afterAll p cs) v q) (.log n l m) = [(p.stderr, .log l n m)]) ∧
    (¬ Asked v q l → written cli (during (afterAll p cs) v q) (.log n l m) = []) := by
  have := (during_plain h cs v q).log (by simp) hn l m
  refine ⟨fun ha => ?_, fun ha => ?_⟩
  · rw [written, this, if_pos ((asked_iff v q l).2 ha)]; rfl
  · rw [written, this, if_neg fun h => ha ((asked_iff v q l).1 h)]

/-- C109: while a command runs, a warning of a module of orthority is written to stderr once, as a message of the logger of the module, if
there is at most one `-q` more than `-v`, and else it is not written. -/
theorem C109_warnings {cli : List Text} {p : Proc} (h : Fresh p) (cs : List (ℕ × ℕ)) (v q : ℕ) {w : Warning} (hw : InPkg cli w.file)
    (hs : w.stream = none) :
    (q ≤ v + 1 → ∃ n, OfPkg n ∧ written cli (during (afterAll p cs) v q) (.warning w) = [(p.stderr, .log 30 n w.msg)]) ∧
    (v + 1 < q → written cli (during (afterAll p cs) v q) (.warning w) = []) := by
  have hk : (during (afterAll p cs) v q).shows = (afterAll p cs).shows + 1 := rfl
  obtain ⟨n, hn, e⟩ := show_pkg hw hs (during (afterAll p cs) v q) (afterAll p cs).shows
  obtain ⟨h1, h2⟩ := C109_messages cli h cs v q hn 30 w.msg
  simp only [written] at h1 h2 ⊢
  rw [hk, e]
  refine ⟨fun hv => ⟨n, hn, h1 ?_⟩, fun hv => h2 ?_⟩ <;> unfold Asked <;> omega

/-- C109: a module `a.py` of orthority warns with the logger of its own name, `orthority.a`. -/
theorem C109_module (dir : List Text) (a : Text) (ha : a ≠ []) (hd : '.' ∉ a) (p : Proc) (k : ℕ) (w : Warning) (hs : w.stream = none)
    (hf : w.file = dir ++ ["orthority".toList, a ++ ".py".toList]) :
    showWarning (dir ++ ["orthority".toList, "cli.py".toList]) p w (k + 1) = log p ["orthority".toList, a] 30 w.msg := by
  have hroot : (dir ++ ["orthority".toList, "cli.py".toList]).dropLast.dropLast = dir := by
    rw [List.dropLast_append_of_ne_nil (by simp)]
    simp
  have hsuf : noSuffix (a ++ ".py".toList) = a := by
    unfold noSuffix
    have e : (a ++ ".py".toList).reverse = 'y' :: 'p' :: '.' :: a.reverse := by simp
    have : (a ++ ".py".toList).reverse.findIdx? (· = '.') = some 2 := by
      rw [e]; simp [List.findIdx?_cons]
    have hl : 0 < a.length := List.length_pos_iff.2 ha
    rw [this]
    simp only
    rw [if_pos (by simp; omega)]
    simp
  have hdot : splitDot a = [a] := by
    clear ha hf hsuf
    induction a with
    | nil => rfl
    | cons c s ih =>
      rw [List.mem_cons, not_or] at hd
      rw [splitDot, if_neg (Ne.symm hd.1), ih hd.2]
  simp only [showWarning]
  rw [hroot, hs, hf, if_neg (by simp [List.prefix_append]), List.drop_left]
  congr 1
  simp only [moduleName, List.dropLast_cons_cons, List.dropLast_singleton, List.flatMap_cons, List.flatMap_nil, List.append_nil,
    List.getLast?_cons_cons, List.getLast?_singleton, Option.map_some, Option.getD_some, hsuf, hdot, splitDot_orthority, pkg,
    List.cons_append, List.nil_append]

/-- C109: a warning of a file that is not below the directory that orthority is installed in is shown as without orthority. -/
theorem C109_others_partial {cli : List Text} (p : Proc) (cs : List (ℕ × ℕ)) (v q : ℕ) {w : Warning}
    (hw : ¬ cli.dropLast.dropLast <+: w.file) :
    written cli (during (afterAll p cs) v q) (.warning w) = written cli p (.warning w) := by
  simp only [written]
  rw [show_other hw, show_other hw]
  have : (during (afterAll p cs) v q).stderr = p.stderr := (afterAll_fields p cs).2.1
  rw [this]

/-- C109 does not hold for warnings of packages that are installed in the same directory as orthority (`site-packages`), as the test is for
that directory and not for that of orthority: all of them are taken for warnings of orthority, so that only the message is written, without
its category, file and line; and it is written however many `-q` there are.  (Here no
logger of the other package has handlers of its own: with a `NullHandler`, as libraries add, nothing at all would be written.) -/
theorem C109_packages_fails {dir : List Text} {p : Proc} (h : Fresh p) (cs : List (ℕ × ℕ)) (v q : ℕ) {w : Warning} (hs : w.stream = none)
    (d : Text) (m : List Text) (hd : '.' ∉ d) (hne : d ≠ "orthority".toList) (hm : m ≠ []) (hf : w.file = dir ++ d :: m) :
    written (dir ++ ["orthority".toList, "cli.py".toList]) (during (afterAll p cs) v q) (.warning w) = [(p.stderr, .plain w.msg)] ∧
    written (dir ++ ["orthority".toList, "cli.py".toList]) p (.warning w) = [(p.stderr, .warning w.category w.file w.line w.msg)] := by
  have hroot : (dir ++ ["orthority".toList, "cli.py".toList]).dropLast.dropLast = dir := by
    rw [List.dropLast_append_of_ne_nil (by simp)]
    simp
  have hdot : splitDot d = [d] := by
    clear hf hne
    induction d with
    | nil => rfl
    | cons c s ih =>
      rw [List.mem_cons, not_or] at hd
      rw [splitDot, if_neg (Ne.symm hd.1), ih hd.2]
  refine ⟨?_, by simp [written, h.shows, showWarning, hs]⟩
  have hpl := during_plain h cs v q
  set r := during (afterAll p cs) v q with hr
  have hk : r.shows = (afterAll p cs).shows + 1 := rfl
  have hse : r.stderr = p.stderr := (afterAll_fields p cs).2.1
  simp only [written]
  rw [hk]
  simp only [showWarning]
  rw [hroot, hs, hf, if_neg (by simp [List.prefix_append]), List.drop_left]
  set n := moduleName (d :: m) with hn
  have hhead : n.head? = some d := by
    rw [hn, moduleName, List.dropLast_cons_of_ne_nil hm, List.flatMap_cons, hdot]
    rfl
  have hnp : ∀ a ∈ ancestors n, a ≠ pkg := by
    rintro a ha rfl
    obtain ⟨t, ht⟩ := mem_ancestors.1 ha
    rw [← ht] at hhead
    simp only [pkg, List.cons_append, List.head?_cons, Option.some.injEq] at hhead
    exact hne hhead.symm
  have h1 : (ancestors n).flatMap r.handlers = [] := by
    rw [List.flatMap_eq_nil_iff]
    exact fun a ha => hpl.handlers a (hnp a ha)
  have h2 : effLevel r n = 30 := by
    unfold effLevel
    have hlast : ancestors n = (ancestors n).dropLast ++ [[]] := by
      unfold ancestors
      rw [List.range_succ_eq_map, List.reverse_cons, List.map_append, List.map_singleton, List.dropLast_append_of_ne_nil (by simp)]
      simp
    have : ∀ (l : List Name), (∀ a ∈ l, a ≠ pkg) → (l ++ [[]]).findSome? r.level = some 30 := by
      intro l hl
      induction l with
      | nil => simp [hpl.level [] pkg_ne.symm]
      | cons a l ih =>
        have ha := hpl.level a (hl a (by simp))
        rw [List.cons_append, List.findSome?_cons, ha]
        by_cases h0 : a = []
        · simp [h0]
        · rw [if_neg h0]; exact ih fun b hb => hl b (by simp [hb])
    rw [hlast, this _ fun a ha => hnp a (List.mem_of_mem_dropLast ha)]
    rfl
  unfold log callHandlers
  rw [h2, h1, hse]
  simp

/-- C109: after commands, outside of them, a warning of orthority is written once for each command that has been run in the process, as
each adds a handler to the logger of the package and none removes it. -/
theorem C109_after_fails {cli : List Text} {p : Proc} (h : Fresh p) (cs : List (ℕ × ℕ)) (v q : ℕ) (hv : q ≤ v + 1) {w : Warning}
    (hw : InPkg cli w.file) (hs : w.stream = none) :
    ∃ n, OfPkg n ∧ written cli (afterAll p (cs ++ [(v, q)])) (.warning w) = List.replicate (cs.length + 1) (p.stderr, .log 30 n w.msg) := by
  rcases afterAll_plain h (cs ++ [(v, q)]) with ⟨e, -⟩ | ⟨c, hc, hpl⟩
  · simp at e
  have : c = (v, q) := by simpa using hc.symm
  subst this
  obtain ⟨n, hn, e⟩ := show_pkg hw hs (afterAll p (cs ++ [(v, q)])) cs.length
  refine ⟨n, hn, ?_⟩
  have hk : (afterAll p (cs ++ [(v, q)])).shows = cs.length + 1 := by
    rw [(afterAll_fields p _).2.2, h.shows]; simp
  simp only [written]
  rw [hk, e, hpl.log (by simp) hn, if_pos ((asked_iff v q 30).2 (by unfold Asked; omega))]
  simp [Handler.emit]

/-- C109: when the streams have been replaced between two commands (as test runners and notebooks do), what the second command logs is
written to the old stream too. -/
theorem C109_streams_fails {p : Proc} (h : Fresh p) (c : ℕ × ℕ) (out err : ℕ) (ho : p.stderr ≠ out) (he : p.stderr ≠ err) (v q : ℕ) {n : Name}
    (hn : OfPkg n) (l : ℤ) (ha : Asked v q l) (m : Text) (cli : List Text) :
    written cli (during { after p c.1 c.2 with stdout := out, stderr := err } v q) (.log n l m) =
      [(p.stderr, .log l n m), (err, .log l n m)] := by
  have h1 := configure_plain (.inr ⟨h, rfl⟩) ((c.1 : ℤ) - c.2) (lv := 0)
  have h2 : Plain { after p c.1 c.2 with stdout := out, stderr := err } _ _ := ⟨h1.level, h1.handlers, h1.pkgLevel, h1.pkgHandlers⟩
  have h3 := redirect_plain (configure_plain (.inl h2) ((v : ℤ) - q))
  have := h3.log (by simp) hn l m
  rw [if_pos ((asked_iff v q l).2 ha)] at this
  rw [written, during, this]
  simp [Proc.console, configure, ho, he, Handler.emit]

theorem fresh_eff {p : Proc} (h : Fresh p) (n : Name) : effLevel p n = 30 := by
  unfold effLevel ancestors
  rw [List.range_succ_eq_map, List.reverse_cons, List.map_append, List.map_singleton, List.findSome?_append]
  have : ((List.map Nat.succ (List.range n.length)).reverse.map n.take).findSome? p.level = none := by
    rw [List.findSome?_eq_none_iff]
    intro m hm
    simp only [List.mem_map, List.mem_reverse, List.mem_range] at hm
    obtain ⟨k, ⟨j, hj, rfl⟩, rfl⟩ := hm
    rw [h.level, if_neg]
    intro e
    have := congrArg List.length e
    rw [List.length_take, List.length_nil] at this
    omega
  rw [this]
  simp [h.level]

/-- C109: with `-v 1` to `-v 4`, the legacy command writes a message of a module of orthority to stderr once, if its level is at least DEBUG,
INFO, WARNING or ERROR (10 to 40), in that order, and else it does not; and warnings of orthority likewise. -/
theorem C109_legacy_partial {cli : List Text} {p : Proc} (h : Fresh p) (v : ℤ) (h1 : 1 ≤ v) {n : Name} (hn : OfPkg n) (l : ℤ)
    (m : Text) {w : Warning} (hw : InPkg cli w.file) (hs : w.stream = none) :
    (10 * v ≤ l → written cli (legacy p (some v)) (.log n l m) = [(p.stderr, .log l n m)]) ∧
    (l < 10 * v → written cli (legacy p (some v)) (.log n l m) = []) ∧
    (v ≤ 3 → ∃ k, OfPkg k ∧ written cli (legacy p (some v)) (.warning w) = [(p.stderr, .log 30 k w.msg)]) ∧
    (3 < v → written cli (legacy p (some v)) (.warning w) = []) := by
  have hpl := configure_plain (.inr ⟨h, rfl⟩) (2 - v) (lv := 0)
  obtain ⟨k, hk, e⟩ := show_pkg hw hs (configure p (2 - v)) p.shows
  have hsh : (configure p (2 - v)).shows = p.shows + 1 := rfl
  have a := hpl.log (by simp) hn l m
  have b := hpl.log (by simp) hk 30 w.msg
  simp only [written, legacy]
  rw [a, hsh, e, b]
  refine ⟨fun hl => ?_, fun hl => ?_, fun hv => ⟨k, hk, ?_⟩, fun hv => ?_⟩
  · rw [if_pos (max_le (by omega) (by omega))]; rfl
  · rw [if_neg fun hc => by have := (max_le_iff.1 hc).2; omega]
  · rw [if_pos (max_le (by omega) (by omega))]; rfl
  · rw [if_neg fun hc => by have := (max_le_iff.1 hc).2; omega]

/-- C109 does not hold for the legacy command without `-v`, though its help gives INFO as the default: messages of INFO are not written,
others are without their level and the name of the logger, and warnings of orthority are shown as Python shows them. -/
theorem C109_legacy_default_fails (cli : List Text) {p : Proc} (h : Fresh p) (n : Name) (l : ℤ) (m : Text) (w : Warning)
    (hs : w.stream = none) :
    (l < 30 → written cli (legacy p none) (.log n l m) = []) ∧
    (30 ≤ l → written cli (legacy p none) (.log n l m) = [(p.stderr, .plain m)]) ∧
    written cli (legacy p none) (.warning w) = [(p.stderr, .warning w.category w.file w.line w.msg)] := by
  have hh : (ancestors n).flatMap p.handlers = [] := by
    rw [List.flatMap_eq_nil_iff]
    exact fun a _ => h.handlers a
  simp only [written, legacy]
  refine ⟨fun hl => ?_, fun hl => ?_, by simp [h.shows, showWarning, hs]⟩
  · unfold log; rw [fresh_eff h, if_neg (by omega)]
  · unfold log callHandlers; rw [fresh_eff h, if_pos hl, hh]; simp [hl]

/-- C109 does not hold for the legacy command after another command in the same process: what it logs is written once for each. -/
theorem C109_legacy_repeat_fails (cli : List Text) {p : Proc} (h : Fresh p) (cs : List (ℕ × ℕ)) (v : ℤ) (h1 : 1 ≤ v) {n : Name}
    (hn : OfPkg n) (l : ℤ) (hl : 10 * v ≤ l) (m : Text) :
    written cli (legacy (afterAll p cs) (some v)) (.log n l m) = List.replicate (cs.length + 1) (p.stderr, .log l n m) := by
  have hs := (afterAll_fields p cs).2.1
  have key : Plain (configure (afterAll p cs) (2 - v)) (max 10 (20 - 10 * (2 - v))) (List.replicate (cs.length + 1) ⟨p.stderr, true⟩) := by
    rcases afterAll_plain h cs with ⟨rfl, e⟩ | ⟨c, -, e⟩
    · exact configure_plain (.inr ⟨h, rfl⟩) (2 - v) (lv := 0)
    · have := configure_plain (.inl e) (2 - v)
      rw [hs, ← List.replicate_succ'] at this
      exact this
  simp only [written, legacy]
  rw [key.log (by simp) hn l m, if_pos (max_le (by omega) (by omega))]
  simp [Handler.emit]

/-! ## Cases of the theorems -/

/-- A process that has not used logging, with stdout 1 and stderr 2. -/
def start : Proc := ⟨1, 2, fun n => if n = [] then some 30 else none, fun _ => [], 0⟩

theorem start_fresh : Fresh start := ⟨fun _ => rfl, fun _ => rfl, rfl⟩

def site : List Text := ["usr".toList, "site-packages".toList]

def cliFile : List Text := site ++ ["orthority".toList, "cli.py".toList]

def fitWarning : Warning := ⟨"FitWarning".toList, site ++ ["orthority".toList, "fit.py".toList], 70, "few GCPs".toList, none⟩

def numpyWarning : Warning := ⟨"RuntimeWarning".toList, site ++ ["numpy".toList, "core.py".toList], 7, "overflow".toList, none⟩

/-- A debug message with `-v`, in the third command of a process, and without. -/
example : written cliFile (during (afterAll start [(0, 0), (0, 2)]) 1 0) (.log ["orthority".toList, "fit".toList] 10 "x".toList) =
      [(2, .log 10 ["orthority".toList, "fit".toList] "x".toList)] ∧
    written cliFile (during (afterAll start [(0, 0), (0, 2)]) 0 0) (.log ["orthority".toList, "fit".toList] 10 "x".toList) = [] :=
  ⟨(C109_messages cliFile start_fresh _ _ _ ⟨_, rfl⟩ _ _).1 (by unfold Asked; omega),
    (C109_messages cliFile start_fresh _ _ _ ⟨_, rfl⟩ _ _).2 (by unfold Asked; omega)⟩

/-- A warning of fit.py with `-q` and with `-qq`. -/
example : (∃ n, OfPkg n ∧ written cliFile (during (afterAll start []) 0 1) (.warning fitWarning) = [(2, .log 30 n "few GCPs".toList)]) ∧
    written cliFile (during (afterAll start []) 0 2) (.warning fitWarning) = [] :=
  have hw : InPkg cliFile fitWarning.file := ⟨site, ["fit.py".toList], rfl, rfl, by simp⟩
  ⟨(C109_warnings start_fresh [] 0 1 hw rfl).1 (by omega), (C109_warnings start_fresh [] 0 2 hw rfl).2 (by omega)⟩

/-- A warning of numpy, with `-qqqqq`. -/
example : written cliFile (during (afterAll start []) 0 5) (.warning numpyWarning) = [(2, .plain "overflow".toList)] :=
  (C109_packages_fails (dir := site) start_fresh [] 0 5 rfl "numpy".toList ["core.py".toList] (by decide) (by decide) (by simp) rfl).1

/-- A warning of a script of the user. -/
example : written cliFile (during (afterAll start []) 0 5) (.warning ⟨"UserWarning".toList, ["home".toList, "a.py".toList], 1, [], none⟩) =
    [(2, .warning "UserWarning".toList ["home".toList, "a.py".toList] 1 [])] :=
  C109_others_partial (cli := cliFile) start [] 0 5 (by decide)

/-- Two commands, and then a warning of fit.py in a script. -/
example : ∃ n, OfPkg n ∧ written cliFile (afterAll start ([(0, 0)] ++ [(1, 0)])) (.warning fitWarning) =
    List.replicate 2 (2, .log 30 n "few GCPs".toList) :=
  C109_after_fails start_fresh [(0, 0)] 1 0 (by omega) ⟨site, ["fit.py".toList], rfl, rfl, by simp⟩ rfl

/-- The legacy command with `-v 2`: its message for an image, and none of DEBUG. -/
example : written cliFile (legacy start (some 2)) (.log ["orthority".toList, "cli".toList] 20 "a.tif".toList) =
      [(2, .log 20 ["orthority".toList, "cli".toList] "a.tif".toList)] ∧
    written cliFile (legacy start (some 2)) (.log ["orthority".toList, "cli".toList] 10 "a.tif".toList) = [] :=
  have hw : InPkg cliFile fitWarning.file := ⟨site, ["fit.py".toList], rfl, rfl, by simp⟩
  ⟨(C109_legacy_partial start_fresh 2 (by omega) ⟨_, rfl⟩ 20 _ hw rfl).1 (by omega),
    (C109_legacy_partial start_fresh 2 (by omega) ⟨_, rfl⟩ 10 _ hw rfl).2.1 (by omega)⟩

/-- The same without `-v`. -/
example : written cliFile (legacy start none) (.log ["orthority".toList, "cli".toList] 20 "a.tif".toList) = [] :=
  (C109_legacy_default_fails cliFile start_fresh _ 20 _ fitWarning rfl).1 (by omega)

end Verif.Cli.Logging
