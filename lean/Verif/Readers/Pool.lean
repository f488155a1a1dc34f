import Verif.Base.Err
import Verif.Base.Dict

/-!
# C23: files read in a thread pool

Model of the pattern in orthority/param_io.py:375-394 (`read_im_rpc_param`), 500-519 (`read_im_gcps`) and
1310-1335 (`ExifReader._read_exif`): one future per file; the main thread takes the results in file order and
stops at the first that raised.  The threads of the pool may complete the futures in any order, interleaved
with the main thread in any way.
-/

set_option autoImplicit false

namespace Verif.Readers

variable {File R : Type}

/-- What the library does with an exception from a future: exceptions of some types are raised again, others
become `RuntimeError`. -/
def reraise (kept : List PyErr) (e : PyErr) : PyErr := if e ∈ kept then e else .runtimeError

/-- orthority/param_io.py:382-391 (RPC, GCP) and 1322-1331 (EXIF). -/
def keptTags : List PyErr := [.fileNotFoundError, .paramError]
def keptExif : List PyErr := [.fileNotFoundError]

/-- State of a run: the results of completed futures, the number of futures that the main thread has used, the
dictionary so far, and the outcome once the main thread has left the loop. -/
structure Pool (R : Type) where
  done : ℕ → Option (Res (String × R))
  next : ℕ
  acc : Dict String R
  out : Option (Res (Dict String R))

/-- All futures submitted, none completed. -/
def Pool.init : Pool R := ⟨fun _ => none, 0, [], none⟩

/-- One step of a run.  `read` reads one file (the name that it goes under and its parameters). -/
inductive Step (read : File → Res (String × R)) (kept : List PyErr) (files : List File) :
    Pool R → Pool R → Prop
  /-- A thread of the pool completes future `i`. -/
  | complete (s : Pool R) (i : ℕ) (f : File) (hf : files[i]? = some f) (hi : s.done i = none) :
      Step read kept files s { s with done := fun j => if j = i then some (read f) else s.done j }
  /-- The main thread takes the result of the next future. -/
  | take (s : Pool R) (p : String × R) (ho : s.out = none) (hd : s.done s.next = some (.ok p)) :
      Step read kept files s { s with next := s.next + 1, acc := s.acc.set p.1 p.2 }
  /-- The next future has raised: shut the pool down without waiting, and raise. -/
  | fail (s : Pool R) (e : PyErr) (ho : s.out = none) (hd : s.done s.next = some (.error e)) :
      Step read kept files s { s with out := some (.error (reraise kept e)) }
  /-- All futures are used: return the dictionary. -/
  | finish (s : Pool R) (ho : s.out = none) (hn : s.next = files.length) :
      Step read kept files s { s with out := some (.ok s.acc) }

/-- States that a run can be in. -/
inductive Reach (read : File → Res (String × R)) (kept : List PyErr) (files : List File) : Pool R → Prop
  | init : Reach read kept files .init
  | step {s s' : Pool R} : Reach read kept files s → Step read kept files s s' → Reach read kept files s'

/-! ## Specification -/

/-- Reading one file after the other in the main thread. -/
inductive ReadsTo (read : File → Res (String × R)) :
    List File → List (String × R) → Option PyErr → Prop
  | nil : ReadsTo read [] [] none
  | ok {f : File} {fs : List File} {p : String × R} {l : List (String × R)} {e : Option PyErr} :
      read f = .ok p → ReadsTo read fs l e → ReadsTo read (f :: fs) (p :: l) e
  | fail {f : File} {fs : List File} {e : PyErr} :
      read f = .error e → ReadsTo read (f :: fs) [] (some e)

structure Inv (read : File → Res (String × R)) (kept : List PyErr) (files : List File) (s : Pool R) : Prop where
  done : ∀ (i : ℕ) r, s.done i = some r → ∃ f, files[i]? = some f ∧ r = read f
  acc : ∃ l, l.length = s.next ∧ s.next ≤ files.length ∧
    (∀ (i : ℕ) p, l[i]? = some p → ∃ f, files[i]? = some f ∧ read f = .ok p) ∧ s.acc = Dict.ofItems l
  out : ∀ r, s.out = some r → (r = .ok s.acc ∧ s.next = files.length) ∨
    ∃ e f, files[s.next]? = some f ∧ read f = .error e ∧ r = .error (reraise kept e)

theorem ofItems_append_one (l : List (String × R)) (p : String × R) :
    Dict.ofItems (l ++ [p]) = (Dict.ofItems l).set p.1 p.2 := by
  simp [Dict.ofItems, Dict.update]

theorem reach_inv {read : File → Res (String × R)} {kept : List PyErr} {files : List File} {s : Pool R}
    (h : Reach read kept files s) : Inv read kept files s := by
  induction h with
  | init =>
    exact ⟨by simp [Pool.init], ⟨[], rfl, by simp [Pool.init], by simp, rfl⟩, by simp [Pool.init]⟩
  | @step s _ hr hs ih =>
    cases hs with
    | complete i f hf hi =>
      refine ⟨?_, ih.acc, ih.out⟩
      intro j r hj
      simp only at hj
      split_ifs at hj with h1
      · subst h1
        exact ⟨f, hf, by simpa using hj.symm⟩
      · exact ih.done j r hj
    | take p ho hd =>
      obtain ⟨f, hf, hfr⟩ := ih.done _ _ hd
      obtain ⟨l, hl, hle, hl2, hl3⟩ := ih.acc
      refine ⟨ih.done, ⟨l ++ [p], ?_, ?_, ?_, ?_⟩, ?_⟩
      · simp [hl]
      · have := (List.getElem?_eq_some_iff.1 hf).1
        simp only
        omega
      · intro i q hq
        rcases Nat.lt_trichotomy i l.length with h1 | h1 | h1
        · rw [List.getElem?_append_left h1] at hq
          exact hl2 i q hq
        · subst h1
          simp at hq
          subst hq
          exact ⟨f, hl ▸ hf, hfr.symm⟩
        · rw [List.getElem?_eq_none (by simp; omega)] at hq
          exact absurd hq (by simp)
      · rw [ofItems_append_one, hl3]
      · intro r hr
        exact absurd hr (by simp [ho])
    | fail e ho hd =>
      obtain ⟨f, hf, hfr⟩ := ih.done _ _ hd
      refine ⟨ih.done, ih.acc, ?_⟩
      intro r hr
      simp only [Option.some.injEq] at hr
      exact Or.inr ⟨e, f, hf, hfr.symm, hr.symm⟩
    | finish ho hn =>
      refine ⟨ih.done, ih.acc, ?_⟩
      intro r hr
      simp only [Option.some.injEq] at hr
      exact Or.inl ⟨hr.symm, hn⟩

theorem readsTo_all {read : File → Res (String × R)} {files : List File}
    {l : List (String × R)} (h : ReadsTo read files l none) :
    l.length = files.length ∧ ∀ (i : ℕ) f, files[i]? = some f → ∃ p, l[i]? = some p ∧ read f = .ok p := by
  generalize he : (none : Option PyErr) = e at h
  induction h with
  | nil => simp
  | ok hf _ ih =>
    obtain ⟨h1, h2⟩ := ih he
    refine ⟨by simp [h1], ?_⟩
    intro i f hi
    cases i with
    | zero => simp at hi; subst hi; exact ⟨_, rfl, hf⟩
    | succ i => simpa using h2 i f (by simpa using hi)
  | fail => exact absurd he (by simp)

theorem readsTo_fail {read : File → Res (String × R)} {files : List File}
    {l : List (String × R)} {e : PyErr} (h : ReadsTo read files l (some e)) :
    (∃ f, files[l.length]? = some f ∧ read f = .error e) ∧
      ∀ i < l.length, ∃ f p, files[i]? = some f ∧ l[i]? = some p ∧ read f = .ok p := by
  generalize he : some e = e' at h
  induction h with
  | nil => exact absurd he (by simp)
  | ok hf _ ih =>
    obtain ⟨⟨f', h1, h2⟩, h3⟩ := ih he
    refine ⟨⟨f', by simpa using h1, h2⟩, ?_⟩
    intro i hi
    cases i with
    | zero => exact ⟨_, _, rfl, rfl, hf⟩
    | succ i => simpa using h3 i (by simpa using hi)
  | fail hf =>
    simp only [Option.some.injEq] at he
    subst he
    exact ⟨⟨_, rfl, hf⟩, by simp⟩

/-- C23: whatever the interleaving, if all files can be read, the outcome is the dictionary of the entries in
file order, each with the parameters of its own file, given that no two files have the same name. -/
theorem C23_all_read {read : File → Res (String × R)} {kept : List PyErr} {files : List File} {s : Pool R}
    (hs : Reach read kept files s) {r : Res (Dict String R)} (hr : s.out = some r)
    {l : List (String × R)} (hl : ReadsTo read files l none) (hnd : (l.map Prod.fst).Nodup) :
    r = .ok l := by
  have inv := reach_inv hs
  obtain ⟨h1, h2⟩ := readsTo_all hl
  rcases inv.out r hr with ⟨rfl, hn⟩ | ⟨e, f, hf, hfe, -⟩
  · obtain ⟨l', hl', -, hl2, hl3⟩ := inv.acc
    have : l' = l := by
      apply List.ext_getElem?
      intro i
      cases hi : l'[i]? with
      | none =>
        rw [List.getElem?_eq_none_iff] at hi
        rw [List.getElem?_eq_none (by omega)]
      | some p =>
        obtain ⟨f, hf, hfp⟩ := hl2 i p hi
        obtain ⟨q, hq, hfq⟩ := h2 i f hf
        rw [hfp] at hfq
        simp only [Except.ok.injEq] at hfq
        rw [hq, hfq]
    rw [hl3, this, Dict.ofItems_ok hnd]
  · obtain ⟨p, -, hp⟩ := h2 _ f hf
    rw [hfe] at hp
    exact absurd hp (by simp)

/-- C23: whatever the interleaving, if files cannot be read, the outcome is the error of the first of them in
file order (`RuntimeError` unless it is of a type that is raised again). -/
theorem C23_first_error {read : File → Res (String × R)} {kept : List PyErr} {files : List File} {s : Pool R}
    (hs : Reach read kept files s) {r : Res (Dict String R)} (hr : s.out = some r)
    {l : List (String × R)} {e : PyErr} (hl : ReadsTo read files l (some e)) :
    r = .error (if e ∈ kept then e else .runtimeError) := by
  have inv := reach_inv hs
  obtain ⟨⟨f, hf, hfe⟩, h2⟩ := readsTo_fail hl
  obtain ⟨l', hl', hle, hl2, hl3⟩ := inv.acc
  have hn : s.next ≤ l.length := by
    by_contra hc
    have : l.length < l'.length := by omega
    obtain ⟨f', hf', hfp⟩ := hl2 l.length l'[l.length] (List.getElem?_eq_getElem this)
    rw [hf] at hf'
    simp only [Option.some.injEq] at hf'
    rw [← hf', hfe] at hfp
    exact absurd hfp (by simp)
  have hlen := (List.getElem?_eq_some_iff.1 hf).1
  rcases inv.out r hr with ⟨rfl, hn'⟩ | ⟨e', f', hf', hfe', rfl⟩
  · omega
  · rcases Nat.lt_or_eq_of_le hn with h3 | h3
    · obtain ⟨f'', p, hf'', -, hp⟩ := h2 _ h3
      rw [hf'] at hf''
      simp only [Option.some.injEq] at hf''
      rw [← hf'', hfe'] at hp
      exact absurd hp (by simp)
    · rw [h3, hf] at hf'
      simp only [Option.some.injEq] at hf'
      rw [← hf', hfe] at hfe'
      simp only [Except.error.injEq] at hfe'
      rw [← hfe']
      rfl

/-- C23: for RPC and GCP tags, `FileNotFoundError` and `ParamError` are raised as such, other errors as
`RuntimeError`; for EXIF tags only `FileNotFoundError` is raised as such. -/
theorem C23_error_types {read : File → Res (String × R)} {files : List File} {s : Pool R}
    {r : Res (Dict String R)} (hr : s.out = some r) {l : List (String × R)} {e : PyErr}
    (hl : ReadsTo read files l (some e)) :
    (Reach read keptTags files s →
      r = .error (if e = .fileNotFoundError ∨ e = .paramError then e else .runtimeError)) ∧
    (Reach read keptExif files s → r = .error (if e = .fileNotFoundError then e else .runtimeError)) := by
  constructor <;> intro hs <;> rw [C23_first_error hs hr hl]
  · simp only [keptTags, List.mem_cons, List.not_mem_nil, or_false]
  · simp only [keptExif, List.mem_cons, List.not_mem_nil, or_false]

/-- C23: every run gets to an outcome: as long as there is none, some step is possible. -/
theorem C23_progress {read : File → Res (String × R)} {kept : List PyErr} {files : List File} {s : Pool R}
    (hs : Reach read kept files s) (ho : s.out = none) : ∃ s', Step read kept files s s' := by
  have inv := reach_inv hs
  obtain ⟨l, hl, hle, -, -⟩ := inv.acc
  rcases Nat.lt_or_eq_of_le hle with h | h
  · cases hd : s.done s.next with
    | none => exact ⟨_, .complete s s.next files[s.next] (List.getElem?_eq_getElem h) hd⟩
    | some r =>
      cases r with
      | ok p => exact ⟨_, .take s p ho hd⟩
      | error e => exact ⟨_, .fail s e ho hd⟩
  · exact ⟨_, .finish s ho h⟩

/-- Number of steps that can still be made. -/
def Pool.left (files : List File) (s : Pool R) : ℕ :=
  ((List.range files.length).filter fun i => (s.done i).isNone).length + (files.length - s.next) +
    (if s.out = none then 1 else 0)

/-- Steps cannot go on forever: each lowers `left`, which is at most twice the number of files plus one. -/
theorem C23_terminates {read : File → Res (String × R)} {kept : List PyErr} {files : List File} {s s' : Pool R}
    (hs : Reach read kept files s) (h : Step read kept files s s') : s'.left files < s.left files := by
  have inv := reach_inv hs
  obtain ⟨l, hl, hle, -, -⟩ := inv.acc
  unfold Pool.left
  cases h with
  | complete i f hf hi =>
    have hi' := (List.getElem?_eq_some_iff.1 hf).1
    simp only
    have : ((List.range files.length).filter fun j => (if j = i then some (read f) else s.done j).isNone).length <
        ((List.range files.length).filter fun j => (s.done j).isNone).length := by
      rw [← List.countP_eq_length_filter, ← List.countP_eq_length_filter]
      have h1 : (List.range files.length).countP (fun j => (s.done j).isNone) =
          (List.range files.length).countP (fun j => (if j = i then some (read f) else s.done j).isNone) +
          (List.range files.length).countP (fun j => decide (j = i)) := by
        clear hf hi' inv hle hl hs
        induction (List.range files.length) with
        | nil => rfl
        | cons a L ih =>
          simp only [List.countP_cons, ih]
          by_cases ha : a = i
          · subst ha; simp [hi]; omega
          · simp [ha]; omega
      have h2 : 0 < (List.range files.length).countP (fun j => decide (j = i)) := by
        rw [List.countP_pos_iff]
        exact ⟨i, by simpa using hi', by simp⟩
      omega
    omega
  | take p ho hd =>
    obtain ⟨f, hf, -⟩ := inv.done _ _ hd
    have := (List.getElem?_eq_some_iff.1 hf).1
    simp only [ho]
    simp
    omega
  | fail e ho hd => simp [ho]
  | finish ho hn => simp [ho]

/-- C23: files with the same name in different directories are not told apart: the parameters of the last
replace those of the others. -/
theorem C23_same_name_fails (x y : R) (kept : List PyErr) :
    ∃ (read : ℕ → Res (String × R)) (s : Pool R), Reach read kept [0, 1] s ∧
      read 0 = .ok ("a.tif", x) ∧ read 1 = .ok ("a.tif", y) ∧ s.out = some (.ok [("a.tif", y)]) := by
  let read : ℕ → Res (String × R) := fun f => .ok ("a.tif", if f = 0 then x else y)
  exact ⟨read, _, Reach.step (Reach.step (Reach.step (Reach.step (Reach.step Reach.init
      (.complete _ 1 1 rfl rfl)) (.complete _ 0 0 rfl rfl)) (.take _ ("a.tif", x) rfl rfl))
      (.take _ ("a.tif", y) rfl rfl)) (.finish _ rfl rfl), rfl, rfl, rfl⟩

/-- A run of three files that completes them in reverse order; the first file in order that fails decides. -/
example : ∃ s : Pool ℕ, Reach (fun f : ℕ => if f = 0 then .ok ("a", 5) else if f = 1 then .error .osError else
      .error .fileNotFoundError) keptTags [0, 1, 2] s ∧ s.out = some (.error .runtimeError) := by
  refine ⟨_, Reach.step (Reach.step (Reach.step (Reach.step (Reach.step Reach.init (.complete _ 2 2 rfl rfl))
    (.complete _ 1 1 rfl rfl)) (.complete _ 0 0 rfl rfl)) (.take _ ("a", 5) rfl rfl)) (.fail _ .osError rfl rfl), rfl⟩

end Verif.Readers
