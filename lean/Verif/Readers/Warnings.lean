import Mathlib.Data.List.Basic
import Mathlib.Logic.Function.Basic
import Mathlib.Data.List.Range

/-!
# C97: reading tags leaves the warning filters of the process alone

Images are read in blocks of `suppress_no_georef` (orthority/common.py:71-79), that hide rasterio's
`NotGeoreferencedWarning`.  The block changes `warnings.filters`, a global of the process.  `read_im_rpc_param`
(orthority/param_io.py:348-391), `read_im_gcps` (466-519) and `ExifReader` (1303-1335 with orthority/exif.py:111-117)
run these blocks in the threads of a pool.

Modelled: the filter lists as objects, what `catch_warnings` and `simplefilter` of the standard library (Python 3.9 to
3.13, `Lib/warnings.py`) do to them, statement by statement, and the threads in any order of their statements.  Not
modelled: the `showwarning` hook (C109 is about it), the registry of warnings already shown, and the option
of Python 3.14 to keep filters per context.
-/

set_option autoImplicit false
set_option linter.unusedSectionVars false

namespace Verif.Readers.Warnings

variable {F W A : Type} [DecidableEq F]

/-- How Python uses a list of filters (`warn_explicit` of the standard library): the first filter that hits the warning
decides what is done with it, or the default action. -/
structure Filters (F W A : Type) where
  hits : F → W → Bool
  action : F → A
  default : A
  /-- `('ignore', None, NotGeoreferencedWarning, None, 0)`, orthority/common.py:78. -/
  ign : F

def Filters.act (x : Filters F W A) (l : List F) (w : W) : A :=
  match l.find? (x.hits · w) with
  | some f => x.action f
  | none => x.default

/-- Where a thread is in its block. `r` is the list that `catch_warnings` found when it was entered. -/
inductive Pc where
  | idle
  | saved (r : ℕ)
  | copied (r : ℕ)
  | removed (r : ℕ)
  | inside (r : ℕ)
  | done
  deriving DecidableEq

def Pc.active : Pc → Bool
  | .idle => false
  | .done => false
  | _ => true

/-- The list objects, the one that `warnings.filters` is bound to, the number of objects, and the threads. -/
structure State (F : Type) where
  heap : ℕ → List F
  cur : ℕ
  next : ℕ
  pc : ℕ → Pc

/-- The content of `warnings.filters`. -/
def State.filters (s : State F) : List F := s.heap s.cur

/-- `warnings.filters = list[:]` (`catch_warnings.__enter__`, from orthority/common.py:77). -/
def State.copy (s : State F) (r : ℕ) : State F :=
  ⟨Function.update s.heap s.next (s.heap r), s.next, s.next + 1, s.pc⟩

/-- `filters.remove(item)` (`simplefilter`, from orthority/common.py:78); no error if there is no such item. -/
def State.remove (s : State F) (f : F) : State F := { s with heap := Function.update s.heap s.cur (s.filters.erase f) }

/-- `filters.insert(0, item)` (`simplefilter`, from orthority/common.py:78). -/
def State.insert (s : State F) (f : F) : State F := { s with heap := Function.update s.heap s.cur (f :: s.filters) }

/-- `warnings.filters = list` (`catch_warnings.__exit__`, from orthority/common.py:77-79). -/
def State.restore (s : State F) (r : ℕ) : State F := { s with cur := r }

def State.at (s : State F) (i : ℕ) (p : Pc) : State F := { s with pc := Function.update s.pc i p }

/-- Number of the `n` tasks that are in their blocks. -/
def State.running (s : State F) (n : ℕ) : ℕ := ((List.range n).filter fun j => (s.pc j).active).length

/-- One statement of one task of a pool (orthority/param_io.py:353-362, 471-476, orthority/exif.py:113-124): `n` files,
and as many threads as `workers`. The pool waits for all its tasks, whether they raise or not. -/
inductive Step (x : Filters F W A) (workers n : ℕ) : State F → State F → Prop
  | save (s : State F) (i : ℕ) : i < n → s.pc i = .idle → s.running n < workers → Step x workers n s (s.at i (.saved s.cur))
  | copy (s : State F) (i r : ℕ) : i < n → s.pc i = .saved r → Step x workers n s ((s.copy r).at i (.copied r))
  | remove (s : State F) (i r : ℕ) : i < n → s.pc i = .copied r → Step x workers n s ((s.remove x.ign).at i (.removed r))
  | insert (s : State F) (i r : ℕ) : i < n → s.pc i = .removed r → Step x workers n s ((s.insert x.ign).at i (.inside r))
  | leave (s : State F) (i r : ℕ) : i < n → s.pc i = .inside r → Step x workers n s ((s.restore r).at i .done)

/-- The states that can follow. -/
inductive Run (x : Filters F W A) (workers n : ℕ) : State F → State F → Prop
  | refl (s : State F) : Run x workers n s s
  | tail {s t u : State F} : Run x workers n s t → Step x workers n t u → Run x workers n s u

/-- The process before the call: `warnings.filters` has the items `l`. -/
def start (l : List F) : State F := ⟨fun _ => l, 0, 1, fun _ => .idle⟩

/-! ## Specification -/

/-- All files have been read. -/
def Finished (n : ℕ) (s : State F) : Prop := ∀ i < n, s.pc i = .done

/-- Task `i` is reading its file. -/
def Reading (i : ℕ) (s : State F) : Prop := ∃ r, s.pc i = .inside r

/-! ## Proofs -/

section

variable {x : Filters F W A} {workers n : ℕ}

theorem Run.trans {s t u : State F} (h : Run x workers n s t) (k : Run x workers n t u) : Run x workers n s u := by
  induction k with
  | refl => exact h
  | tail _ st ih => exact ih.tail st

/-- The items of the user: everything but the item that the block adds. -/
def others (f : F) (l : List F) : List F := l.filter fun g => g ≠ f

theorem others_erase (f : F) (l : List F) : others f (l.erase f) = others f l := by
  induction l with
  | nil => rfl
  | cons a l ih =>
    by_cases h : a = f
    · subst h; simp [others]
    · rw [List.erase_cons_tail (by simpa using h)]
      simp only [others, List.filter_cons] at ih ⊢
      rw [ih]

theorem act_others (x : Filters F W A) (l : List F) (w : W) (hw : x.hits x.ign w = false) :
    x.act (others x.ign l) w = x.act l w := by
  unfold Filters.act others
  have : (l.filter fun g => g ≠ x.ign).find? (x.hits · w) = l.find? (x.hits · w) := by
    induction l with
    | nil => rfl
    | cons a l ih =>
      by_cases h : a = x.ign
      · subst h; simpa [List.find?_cons, hw] using ih
      · simp only [ne_eq, h, not_false_eq_true, decide_true, List.filter_cons_of_pos, List.find?_cons]
        rw [ih]
  rw [this]

/-- In every list of the process the items of the user are as they were. -/
structure Kept (f : F) (l : List F) (s : State F) : Prop where
  cur : s.cur < s.next
  heap : ∀ r < s.next, others f (s.heap r) = others f l
  saved : ∀ i r, s.pc i = .saved r ∨ s.pc i = .copied r ∨ s.pc i = .removed r ∨ s.pc i = .inside r → r < s.next

theorem Kept.set {f : F} {l : List F} {s : State F} (h : Kept f l s) (m : List F) (hm : others f m = others f l) (i r : ℕ)
    (hr : r < s.next) (p : Pc) (hp : p = .saved r ∨ p = .copied r ∨ p = .removed r ∨ p = .inside r) :
    Kept f l (State.at { s with heap := Function.update s.heap s.cur m } i p) := by
  refine ⟨h.cur, fun q hq => ?_, fun j q hj => ?_⟩
  · simp only [State.at]
    by_cases hc : q = s.cur
    · subst hc; simpa using hm
    · simpa [Function.update_of_ne hc] using h.heap q hq
  · simp only [State.at] at hj
    by_cases hc : j = i
    · subst hc
      simp only [Function.update_self] at hj
      have : q = r := by
        rcases hp with hp | hp | hp | hp <;> subst hp <;> simpa [eq_comm] using hj
      subst this; exact hr
    · rw [Function.update_of_ne hc] at hj
      exact h.saved j q hj

theorem kept_step {l : List F} {s t : State F} (h : Kept x.ign l s) (st : Step x workers n s t) : Kept x.ign l t := by
  cases st with
  | save i hi hp hw =>
    have := h.set (s.heap s.cur) (h.heap _ h.cur) i s.cur h.cur (.saved s.cur) (.inl rfl)
    simpa [Function.update_eq_self] using this
  | copy i r hi hp =>
    have hr : r < s.next := h.saved i r (.inl hp)
    refine ⟨by simp [State.at, State.copy], fun q hq => ?_, fun j q hj => ?_⟩
    · simp only [State.at, State.copy] at hq ⊢
      by_cases hc : q = s.next
      · subst hc; simpa using h.heap r hr
      · rw [Function.update_of_ne hc]; exact h.heap q (by omega)
    · simp only [State.at, State.copy] at hj ⊢
      by_cases hc : j = i
      · subst hc
        have : q = r := by simpa [eq_comm] using hj
        omega
      · rw [Function.update_of_ne hc] at hj
        have := h.saved j q hj
        omega
  | remove i r hi hp =>
    exact h.set _ ((others_erase _ _).trans (h.heap _ h.cur)) i r (h.saved i r (.inr (.inl hp))) _ (.inr (.inr (.inl rfl)))
  | insert i r hi hp =>
    refine h.set _ ?_ i r (h.saved i r (.inr (.inr (.inl hp)))) _ (.inr (.inr (.inr rfl)))
    rw [← h.heap _ h.cur]
    simp [others, State.filters]
  | leave i r hi hp =>
    refine ⟨h.saved i r (.inr (.inr (.inr hp))), h.heap, fun j q hj => ?_⟩
    simp only [State.at, State.restore] at hj ⊢
    by_cases hc : j = i
    · subst hc; simp at hj
    · rw [Function.update_of_ne hc] at hj
      exact h.saved j q hj

theorem kept_run {l : List F} {s t : State F} (h : Kept x.ign l s) (k : Run x workers n s t) : Kept x.ign l t := by
  induction k with
  | refl => exact h
  | tail _ st ih => exact kept_step ih st

theorem kept_start (f : F) (l : List F) : Kept f l (start l) := by
  refine ⟨by simp [start], fun _ _ => rfl, fun i r h => ?_⟩
  simp [start] at h

/-! ### One file at a time -/

/-- The states of a pool that runs one task at a time. -/
def Alone (f : F) (l : List F) (s : State F) : Prop :=
  s.heap 0 = l ∧ 0 < s.next ∧
    (((∀ j, (s.pc j).active = false) ∧ s.cur = 0) ∨
      ∃ i, (∀ j, j ≠ i → (s.pc j).active = false) ∧
        (s.pc i = .saved 0 ∧ s.cur = 0 ∨ s.pc i = .copied 0 ∧ s.cur ≠ 0 ∨ s.pc i = .removed 0 ∧ s.cur ≠ 0 ∨
          s.pc i = .inside 0 ∧ s.cur ≠ 0 ∧ ∃ m, s.filters = f :: m))

theorem running_pos {s : State F} {j : ℕ} (hj : j < n) (ha : (s.pc j).active = true) : 0 < s.running n := by
  unfold State.running
  refine List.length_pos_of_mem (a := j) ?_
  simp [hj, ha]

theorem alone_active {s : State F} {i j : ℕ} (h : ∀ j, j ≠ i → (s.pc j).active = false) (ha : (s.pc j).active = true) : j = i := by
  by_contra hc
  rw [h j hc] at ha
  exact Bool.noConfusion ha

theorem at_others {s : State F} {i : ℕ} {p : Pc} (h : ∀ j, j ≠ i → (s.pc j).active = false) :
    ∀ j, j ≠ i → ((s.at i p).pc j).active = false := by
  intro j hj
  simpa [State.at, Function.update_of_ne hj] using h j hj

theorem alone_step {l : List F} {s t : State F} (hn : workers ≤ 1 ∨ n ≤ 1) (hb : ∀ j, (s.pc j).active = true → j < n)
    (h : Alone x.ign l s) (st : Step x workers n s t) :
    Alone x.ign l t := by
  obtain ⟨h0, hx, h⟩ := h
  cases st with
  | save i hi hp hw =>
    rcases h with ⟨ha, hc⟩ | ⟨k, hk, hs⟩
    · exact ⟨h0, hx, .inr ⟨i, at_others fun j _ => ha j, .inl ⟨by simp [State.at, hc], hc⟩⟩⟩
    · exfalso
      have hka : (s.pc k).active = true := by
        rcases hs with hs | hs | hs | hs <;> rw [hs.1] <;> rfl
      have hkn := hb k hka
      have hpos : 0 < s.running n := running_pos hkn hka
      have hki : k ≠ i := fun e => by rw [e, hp] at hka; exact Bool.noConfusion hka
      omega
  | copy i r hi hp =>
    rcases h with ⟨ha, hc⟩ | ⟨k, hk, hs⟩
    · have := ha i; rw [hp] at this; exact Bool.noConfusion this
    · have : i = k := alone_active hk (by rw [hp]; rfl)
      subst this
      rw [hp] at hs
      have hr : r = 0 := by simpa using hs.imp And.left fun h => h
      subst hr
      refine ⟨?_, by simp [State.at, State.copy], .inr ⟨i, at_others (s := s.copy 0) hk, .inr (.inl ⟨by simp [State.at], ?_⟩)⟩⟩
      · have : (0 : ℕ) ≠ s.next := by omega
        simp [State.at, State.copy, Function.update_of_ne this, h0]
      · simp only [State.at, State.copy]; omega
  | remove i r hi hp =>
    rcases h with ⟨ha, hc⟩ | ⟨k, hk, hs⟩
    · have := ha i; rw [hp] at this; exact Bool.noConfusion this
    · have : i = k := alone_active hk (by rw [hp]; rfl)
      subst this
      rw [hp] at hs
      simp only [reduceCtorEq, false_and, Pc.copied.injEq, or_false, false_or] at hs
      obtain ⟨hr, hc⟩ := hs
      subst hr
      refine ⟨?_, hx, .inr ⟨i, at_others (s := s.remove x.ign) hk, .inr (.inr (.inl ⟨by simp [State.at], hc⟩))⟩⟩
      simp [State.at, State.remove, Function.update_of_ne (Ne.symm hc), h0]
  | insert i r hi hp =>
    rcases h with ⟨ha, hc⟩ | ⟨k, hk, hs⟩
    · have := ha i; rw [hp] at this; exact Bool.noConfusion this
    · have : i = k := alone_active hk (by rw [hp]; rfl)
      subst this
      rw [hp] at hs
      simp only [reduceCtorEq, false_and, Pc.removed.injEq, or_false, false_or] at hs
      obtain ⟨hr, hc⟩ := hs
      subst hr
      refine ⟨?_, hx, .inr ⟨i, at_others (s := s.insert x.ign) hk, .inr (.inr (.inr ⟨by simp [State.at], hc, s.filters, ?_⟩))⟩⟩
      · simp [State.at, State.insert, Function.update_of_ne (Ne.symm hc), h0]
      · simp [State.at, State.insert, State.filters]
  | leave i r hi hp =>
    rcases h with ⟨ha, hc⟩ | ⟨k, hk, hs⟩
    · have := ha i; rw [hp] at this; exact Bool.noConfusion this
    · have : i = k := alone_active hk (by rw [hp]; rfl)
      subst this
      rw [hp] at hs
      simp only [reduceCtorEq, false_and, Pc.inside.injEq, false_or] at hs
      obtain ⟨hr, -⟩ := hs
      subst hr
      refine ⟨h0, hx, .inl ⟨fun j => ?_, rfl⟩⟩
      by_cases hj : j = i
      · subst hj; simp [State.at, Pc.active]
      · exact at_others (s := s.restore 0) hk j hj

theorem bound_step {s t : State F} (hb : ∀ j, (s.pc j).active = true → j < n) (st : Step x workers n s t) :
    ∀ j, (t.pc j).active = true → j < n := by
  intro j ha
  cases st with
  | save i hi hp hw => by_cases hj : j = i
                       · omega
                       · exact hb j (by simpa [State.at, Function.update_of_ne hj] using ha)
  | copy i r hi hp => by_cases hj : j = i
                      · omega
                      · exact hb j (by simpa [State.at, State.copy, Function.update_of_ne hj] using ha)
  | remove i r hi hp => by_cases hj : j = i
                        · omega
                        · exact hb j (by simpa [State.at, State.remove, Function.update_of_ne hj] using ha)
  | insert i r hi hp => by_cases hj : j = i
                        · omega
                        · exact hb j (by simpa [State.at, State.insert, Function.update_of_ne hj] using ha)
  | leave i r hi hp => by_cases hj : j = i
                       · omega
                       · exact hb j (by simpa [State.at, State.restore, Function.update_of_ne hj] using ha)

theorem alone_run {l : List F} {t : State F} (hn : workers ≤ 1 ∨ n ≤ 1) (k : Run x workers n (start l) t) :
    Alone x.ign l t ∧ ∀ j, (t.pc j).active = true → j < n := by
  induction k with
  | refl => exact ⟨⟨rfl, by simp [start], .inl ⟨fun _ => rfl, rfl⟩⟩, fun j h => by simp [start, Pc.active] at h⟩
  | tail _ st ih => exact ⟨alone_step hn ih.2 ih.1 st, bound_step ih.2 st⟩

/-! ### A block around the call -/

/-- The list that the caller had is in no thread's hands. -/
def Aside (l : List F) (s : State F) : Prop :=
  s.heap 0 = l ∧ s.cur ≠ 0 ∧ 0 < s.next ∧
    ∀ i, s.pc i ≠ .saved 0 ∧ s.pc i ≠ .copied 0 ∧ s.pc i ≠ .removed 0 ∧ s.pc i ≠ .inside 0

theorem aside_at {l : List F} {s : State F} {i : ℕ} {p : Pc} (h : Aside l s)
    (hp : p ≠ .saved 0 ∧ p ≠ .copied 0 ∧ p ≠ .removed 0 ∧ p ≠ .inside 0) : Aside l (s.at i p) := by
  refine ⟨h.1, h.2.1, h.2.2.1, fun j => ?_⟩
  by_cases hj : j = i
  · subst hj; simpa [State.at] using hp
  · simpa [State.at, Function.update_of_ne hj] using h.2.2.2 j

theorem aside_set {l m : List F} {s : State F} (h : Aside l s) : Aside l { s with heap := Function.update s.heap s.cur m } :=
  ⟨by simp [Function.update_of_ne (Ne.symm h.2.1), h.1], h.2⟩

theorem aside_step {l : List F} {s t : State F} (h : Aside l s) (st : Step x workers n s t) : Aside l t := by
  cases st with
  | save i hi hp hw => exact aside_at h (by simpa using h.2.1)
  | copy i r hi hp =>
    have hr : r ≠ 0 := fun e => (h.2.2.2 i).1 (e ▸ hp)
    have hx := h.2.2.1
    refine aside_at (s := s.copy r) ⟨?_, ?_, ?_, h.2.2.2⟩ (by simpa using hr)
    · have : (0 : ℕ) ≠ s.next := by omega
      simp [State.copy, Function.update_of_ne this, h.1]
    · simp only [State.copy]; omega
    · simp [State.copy]
  | remove i r hi hp =>
    have hr : r ≠ 0 := fun e => (h.2.2.2 i).2.1 (e ▸ hp)
    exact aside_at (aside_set h) (by simpa using hr)
  | insert i r hi hp =>
    have hr : r ≠ 0 := fun e => (h.2.2.2 i).2.2.1 (e ▸ hp)
    exact aside_at (aside_set h) (by simpa using hr)
  | leave i r hi hp =>
    have hr : r ≠ 0 := fun e => (h.2.2.2 i).2.2.2 (e ▸ hp)
    exact aside_at (s := s.restore r) ⟨h.1, hr, h.2.2⟩ (by simp)

theorem aside_run {l : List F} {s t : State F} (h : Aside l s) (k : Run x workers n s t) : Aside l t := by
  induction k with
  | refl => exact h
  | tail _ st ih => exact aside_step ih st

/-! ### Two at a time -/

/-- A task that is run alone finds the filters and leaves them. -/
theorem run_one {s : State F} {i : ℕ} (hi : i < n) (hp : s.pc i = .idle) (hc : s.cur < s.next)
    (ha : ∀ j, (s.pc j).active = false) (hw : 0 < workers) :
    ∃ t, Run x workers n s t ∧ t.pc i = .done ∧ (∀ j, j ≠ i → t.pc j = s.pc j) ∧ t.filters = s.filters ∧ t.cur < t.next := by
  have h0 : s.running n < workers := by
    have : s.running n = 0 := by simp [State.running, ha]
    omega
  refine ⟨_, ((((Run.refl s).tail (.save s i hi hp h0)).tail (.copy _ i s.cur hi ?_)).tail (.remove _ i s.cur hi ?_)).tail
      (.insert _ i s.cur hi ?_) |>.tail (.leave _ i s.cur hi ?_), ?_, ?_, ?_, ?_⟩
  all_goals try simp [State.at, State.copy, State.remove, State.insert, State.restore]
  · intro j hj
    simp [Function.update_of_ne hj]
  · have : s.cur ≠ s.next := by omega
    simp [State.filters, Function.update_of_ne this]
  · omega

theorem run_rest (hw : 0 < workers) {s : State F} {k : ℕ} (hk : k ≤ n) (hd : ∀ j < k, s.pc j = .done) (hi : ∀ j, k ≤ j → s.pc j = .idle)
    (hc : s.cur < s.next) : ∃ t, Run x workers n s t ∧ Finished n t ∧ t.filters = s.filters := by
  obtain ⟨d, rfl⟩ := Nat.exists_eq_add_of_le hk
  clear hk
  induction d generalizing s k with
  | zero => exact ⟨s, .refl s, fun i hi => hd i hi, rfl⟩
  | succ d ih =>
    have ha : ∀ j, (s.pc j).active = false := fun j => by
      rcases Nat.lt_or_ge j k with h | h
      · rw [hd j h]; rfl
      · rw [hi j h]; rfl
    obtain ⟨t, hr, h1, h2, h3, h4⟩ := run_one (x := x) (n := k + (d + 1)) (i := k) (by omega) (hi k le_rfl) hc ha hw
    have e : k + (d + 1) = k + 1 + d := by omega
    rw [e] at hr
    obtain ⟨u, h5, h6, h7⟩ := ih (s := t) (k := k + 1)
      (fun j hj => by
        by_cases hjk : j = k
        · subst hjk; exact h1
        · rw [h2 j hjk]; exact hd j (by omega))
      (fun j hj => by rw [h2 j (by omega)]; exact hi j (by omega)) h4
    rw [e]
    exact ⟨u, hr.trans h5, h6, h7.trans h3⟩

end

/-- The state in which task 0 is reading and task 1 has entered its block. -/
def overlap (x : Filters F W A) (l : List F) : State F :=
  ⟨Function.update (Function.update (fun _ => l) 1 (x.ign :: l.erase x.ign)) 2 (x.ign :: l.erase x.ign), 2, 3,
    Function.update (Function.update (fun _ => .idle) 0 (.inside 0)) 1 (.inside 1)⟩

theorem State.eq {s t : State F} (h1 : s.heap = t.heap) (h2 : s.cur = t.cur) (h3 : s.next = t.next) (h4 : s.pc = t.pc) : s = t := by
  cases s; cases t; simp_all

theorem running_le {n : ℕ} {s : State F} (h : ∀ j, j ≠ 0 → (s.pc j).active = false) : s.running n ≤ 1 := by
  unfold State.running
  induction n with
  | zero => simp
  | succ n ih =>
    rw [List.range_succ, List.filter_append, List.length_append]
    rcases Nat.eq_zero_or_pos n with hz | hz
    · subst hz
      simp only [List.range_zero, List.filter_nil, List.length_nil, Nat.zero_add]
      exact List.length_filter_le _ _
    · have : (([n] : List ℕ).filter fun j => (s.pc j).active) = [] := by simp [h n (by omega)]
      rw [this]; simpa using ih

theorem run_first (x : Filters F W A) {workers n : ℕ} (hw : 0 < workers) (hn : 0 < n) (l : List F) :
    Run x workers n (start l) ⟨Function.update (fun _ => l) 1 (x.ign :: l.erase x.ign), 1, 2,
      Function.update (fun _ => .idle) 0 (.inside 0)⟩ := by
  have h0 : (start l).running n < workers := by
    have : (start l).running n = 0 := by simp [State.running, start, Pc.active]
    omega
  have := ((((Run.refl (x := x) (workers := workers) (n := n) (start l)).tail (.save _ 0 hn rfl h0)).tail (.copy _ 0 0 hn ?_)).tail
    (.remove _ 0 0 hn ?_)).tail (.insert _ 0 0 hn ?_)
  · refine cast (congrArg _ (State.eq ?_ ?_ ?_ ?_)) this <;>
      simp [State.at, State.copy, State.remove, State.insert, State.filters, start]
  all_goals simp [State.at, State.copy, State.remove, start]

theorem run_overlap (x : Filters F W A) {workers n : ℕ} (hw : 2 ≤ workers) (hn : 2 ≤ n) (l : List F) :
    Run x workers n (start l) (overlap x l) := by
  have h1 := run_first x (workers := workers) (n := n) (by omega) (by omega) l
  have h2 := (((h1.tail (.save _ 1 (by omega) (by simp) ?_)).tail (.copy _ 1 1 (by omega) ?_)).tail (.remove _ 1 1 (by omega) ?_)).tail
    (.insert _ 1 1 (by omega) ?_)
  · refine cast (congrArg _ (State.eq ?_ ?_ ?_ ?_)) h2 <;>
      simp [State.at, State.copy, State.remove, State.insert, State.filters, overlap]
  · refine Nat.lt_of_le_of_lt (running_le fun j hj => ?_) (by omega : 1 < workers)
    simp [Function.update_of_ne hj, Pc.active]
  all_goals simp [State.at, State.copy, State.remove]

/-! ## Theorems -/

/-- C97, in part: whatever the number of files and threads, and however the threads are interleaved, at every moment
every warning other than rasterio's `NotGeoreferencedWarning` is treated as it was before the call.  Missing: that warning
itself (`C97_left_fails`). -/
theorem C97_others_partial (x : Filters F W A) (workers n : ℕ) (l : List F) (s : State F) (h : Run x workers n (start l) s)
    (w : W) (hw : x.hits x.ign w = false) : x.act s.filters w = x.act l w := by
  have k := kept_run (kept_start x.ign l) h
  rw [← act_others x _ w hw, ← act_others x l w hw]
  exact congrArg (x.act · w) (k.heap _ k.cur)

/-- C97, in part: with one file, or one thread, the filters are as they were once the files have been read, and the
warning is not shown while a file is read.  Missing: several files (`C97_left_fails`, `C97_shown_fails`). -/
theorem C97_alone_partial (x : Filters F W A) (workers n : ℕ) (hn : workers ≤ 1 ∨ n ≤ 1) (l : List F) (s : State F)
    (h : Run x workers n (start l) s) :
    (Finished n s → s.filters = l) ∧
    ∀ i, Reading i s → ∀ w, x.hits x.ign w = true → x.act s.filters w = x.action x.ign := by
  obtain ⟨⟨h0, -, ha⟩, hb⟩ := alone_run hn h
  constructor
  · intro hf
    rcases ha with ⟨-, hc⟩ | ⟨i, -, hs⟩
    · simp only [State.filters, hc, h0]
    · exfalso
      have hia : (s.pc i).active = true := by
        rcases hs with hs | hs | hs | hs <;> rw [hs.1] <;> rfl
      rw [hf i (hb i hia)] at hia
      exact Bool.noConfusion hia
  · rintro i ⟨r, hr⟩ w hw
    rcases ha with ⟨ha, -⟩ | ⟨k, hk, hs⟩
    · have := ha i; rw [hr] at this; exact Bool.noConfusion this
    · have : i = k := alone_active hk (by rw [hr]; rfl)
      subst this
      rw [hr] at hs
      simp only [reduceCtorEq, false_and, Pc.inside.injEq, false_or] at hs
      obtain ⟨m, hm⟩ := hs.2.2
      simp [Filters.act, hm, hw]

/-- C97, in part: a caller that makes the call in a block of `warnings.catch_warnings` of their own, as the command line
does (orthority/cli.py:602), finds its filters as they were, however the threads are interleaved.  `extra` tells if the block
adds the item itself (`suppress_no_georef`) or not. -/
theorem C97_wrapped_partial (x : Filters F W A) (workers n : ℕ) (l : List F) (extra : Bool) (s : State F)
    (h : Run x workers n (if extra then (((start l).copy 0).remove x.ign).insert x.ign else (start l).copy 0) s) :
    (s.restore 0).filters = l := by
  have h1 : Aside l ((start l).copy 0) := by
    refine ⟨?_, ?_, ?_, fun i => ?_⟩ <;> simp [start, State.copy]
  have h2 : Aside l (if extra then (((start l).copy 0).remove x.ign).insert x.ign else (start l).copy 0) := by
    cases extra
    · exact h1
    · exact aside_set (aside_set h1)
  simpa [State.filters, State.restore] using (aside_run h2 h).1

/-- C97 fails: with two or more files and threads, there is an order of the threads that leaves the filters with the item
that hides `NotGeoreferencedWarning`, for the rest of the process.  Whatever the filters were. -/
theorem C97_left_fails (x : Filters F W A) (workers n : ℕ) (hw : 2 ≤ workers) (hn : 2 ≤ n) (l : List F) :
    ∃ s, Run x workers n (start l) s ∧ Finished n s ∧ s.filters = x.ign :: l.erase x.ign ∧
      ∀ w, x.hits x.ign w = true → x.act s.filters w = x.action x.ign := by
  have h1 := ((run_overlap x hw hn l).tail (.leave _ 0 0 (by omega) (by simp [overlap]))).tail
    (.leave _ 1 1 (by omega) (by simp [overlap, State.at, State.restore]))
  obtain ⟨t, h2, h3, h4⟩ := run_rest (x := x) (workers := workers) (n := n) (k := 2) (by omega) hn
    (s := State.at (State.restore (State.at (State.restore (overlap x l) 0) 0 .done) 1) 1 .done)
    (fun j hj => by
      have : j = 0 ∨ j = 1 := by omega
      rcases this with rfl | rfl <;> simp [State.at, State.restore])
    (fun j hj => by
      have hj0 : j ≠ 0 := by omega
      have hj1 : j ≠ 1 := by omega
      simp [State.at, State.restore, overlap, Function.update_of_ne hj0, Function.update_of_ne hj1])
    (by simp [State.at, State.restore, overlap])
  have h5 : t.filters = x.ign :: l.erase x.ign := by
    rw [h4]; simp [State.filters, State.at, State.restore, overlap]
  refine ⟨t, h1.trans h2, h3, h5, fun w hx => ?_⟩
  simp [Filters.act, h5, hx]

/-- C97 fails: with two or more files and threads, there is an order of the threads in which a file is being read while the
filters are those of the caller, so that `NotGeoreferencedWarning` is shown if the caller does not hide it. -/
theorem C97_shown_fails (x : Filters F W A) (workers n : ℕ) (hw : 2 ≤ workers) (hn : 2 ≤ n) (l : List F) :
    ∃ s, Run x workers n (start l) s ∧ Reading 1 s ∧ s.filters = l := by
  refine ⟨_, (run_overlap x hw hn l).tail (.leave _ 0 0 (by omega) (by simp [overlap])), ⟨1, ?_⟩, ?_⟩
  · simp [State.at, State.restore, overlap]
  · simp [State.filters, State.at, State.restore, overlap]

/-- C97 fails in the commands too, whose filters have the item from the start (orthority/cli.py:602): there is an order of
the threads in which a file is being read while the item is missing. -/
theorem C97_command_fails (x : Filters F W A) (workers n : ℕ) (hw : 2 ≤ workers) (hn : 2 ≤ n) (l : List F) :
    ∃ s, Run x workers n (start (x.ign :: l)) s ∧ Reading 0 s ∧ s.filters = l := by
  have h1 := run_first x (workers := workers) (n := n) (by omega) (by omega) (x.ign :: l)
  have h2 := ((h1.tail (.save _ 1 (by omega) (by simp) ?_)).tail (.copy _ 1 1 (by omega) ?_)).tail (.remove _ 1 1 (by omega) ?_)
  · refine ⟨_, h2, ⟨0, ?_⟩, ?_⟩
    · simp [State.at, State.copy, State.remove]
    · simp [State.filters, State.at, State.copy, State.remove]
  · refine Nat.lt_of_le_of_lt (running_le fun j hj => ?_) (by omega : 1 < workers)
    simp [Function.update_of_ne hj, Pc.active]
  all_goals simp [State.at, State.copy]

/-! ## Examples -/

/-- Filters as (action, category): rasterio's warning has category 1, deprecation warnings have category 2. -/
def demo : Filters (String × ℕ) ℕ String := ⟨fun f w => f.2 = w, Prod.fst, "default", ("ignore", 1)⟩

/-- A user that wants rasterio's warning to be an error: after reading two files it is ignored. -/
example : ∃ s, Run demo 5 2 (start [("error", 1), ("ignore", 2)]) s ∧ Finished 2 s ∧
    demo.act [("error", 1), ("ignore", 2)] 1 = "error" ∧ demo.act s.filters 1 = "ignore" ∧ demo.act s.filters 2 = "ignore" := by
  obtain ⟨s, h, hf, -, ha⟩ := C97_left_fails demo 5 2 (by omega) (by omega) [("error", 1), ("ignore", 2)]
  exact ⟨s, h, hf, by decide, ha 1 (by decide), by rw [C97_others_partial demo 5 2 _ s h 2 (by decide)]; decide⟩

/-- One file: the hypotheses of `C97_alone_partial` are met by a finished run. -/
example : ∃ s, Run demo 5 1 (start [("error", 1)]) s ∧ Finished 1 s ∧ s.filters = [("error", 1)] := by
  obtain ⟨t, h, hf, he⟩ := run_rest (x := demo) (workers := 5) (n := 1) (k := 0) (by omega) (by omega)
    (s := start [("error", 1)]) (fun j hj => absurd hj (by omega)) (fun _ _ => rfl) (by simp [start])
  exact ⟨t, h, hf, (C97_alone_partial demo 5 1 (.inr le_rfl) _ t h).1 hf⟩

end Verif.Readers.Warnings
