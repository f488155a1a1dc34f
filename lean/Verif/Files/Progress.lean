import Verif.Files.Locks
import Mathlib.Algebra.BigOperators.Group.Finset.Basic
import Mathlib.Algebra.BigOperators.Group.Finset.Piecewise
import Mathlib.Algebra.Order.BigOperators.Group.Finset
import Mathlib.Tactic.Ring
import Mathlib.Tactic.Linarith

/-!
# C91: tile workers do not wait for each other for ever
-/

set_option autoImplicit false

namespace Verif.Locks

open Verif.Handles (Name nSrc nOut nPan nMs nIm)

variable {L : Type}

/-! ## Specification -/

/-- Thread `i` has done all of its code, or has raised. -/
def Done (code : ℕ → Code L) (w : List (ℕ × Ev L)) (i : ℕ) : Prop := ∃ r, CT (code i) (thread i w) r

/-- Thread `i` can go on. -/
def CanMove (code : ℕ → Code L) (w : List (ℕ × Ev L)) (i : ℕ) : Prop := ∃ e, Run code (w ++ [(i, e)])

/-- Executions end: their length is bounded, and at every moment each thread is done, can go on, or waits for a lock whose holder can go on.  So a scheduler that runs threads as long as any can
go on, in any order and with any number of them at a time, ends with all threads done. -/
structure Ends (code : ℕ → Code L) : Prop where
  bound : ∃ B, ∀ w, Run code w → w.length ≤ B
  move : ∀ w, Run code w → ∀ i, Done code w i ∨ CanMove code w i ∨ ∃ j l, Holds (thread j w) l ∧ CanMove code w j
  done : ∀ w, Run code w → (∀ i, ¬ CanMove code w i) → ∀ i, Done code w i

/-- The first `n` threads. -/
def first (n : ℕ) (code : ℕ → Code L) (i : ℕ) : Code L := if i < n then code i else .other

/-! ## Lemmas -/

/-- Nothing is held at the end, and no lock is taken while one is held. -/
structure Flat (t : List (Ev L)) : Prop where
  rel : ∀ l, ¬ Holds t l
  acq : ∀ a b l l', t = a ++ .acq l' :: b → ¬ Holds a l

def lockFree : Code L → Prop
  | .io _ => True
  | .other => True
  | .lock _ _ => False
  | .seq c d => lockFree c ∧ lockFree d
  | .opt c => lockFree c

def NoNest : Code L → Prop
  | .io _ => True
  | .other => True
  | .lock _ c => lockFree c
  | .seq c d => NoNest c ∧ NoNest d
  | .opt c => NoNest c

theorem lockFree_trace {c : Code L} {t : List (Ev L)} {r : Bool} (h : CT c t r) (hc : lockFree c) : ∀ l, .acq l ∉ t ∧ .rel l ∉ t := by
  induction h with
  | io => simp
  | other => simp
  | lock => exact hc.elim
  | seq _ _ ih1 ih2 =>
    intro l
    simp [(ih1 hc.1 l), (ih2 hc.2 l)]
  | seqErr _ ih => exact ih hc.1
  | skip => simp
  | opt _ ih => exact ih hc

theorem flat_of_none {t : List (Ev L)} (h : ∀ l, .acq l ∉ t) : Flat t :=
  ⟨fun l => not_holds_of_notMem (h l), fun a b l l' ht => absurd (by rw [ht]; simp) (h l')⟩

theorem flat_append {t t' : List (Ev L)} (h : Flat t) (h' : Flat t') : Flat (t ++ t') := by
  refine ⟨fun l hl => (holds_append hl).elim (h.rel l) (h'.rel l), fun a b l l' he hl => ?_⟩
  rcases List.append_eq_append_iff.1 he with ⟨c, hc, hd⟩ | ⟨c, hc, hd⟩
  · subst hc
    exact (holds_append hl).elim (h.rel l) (h'.acq c b l l' hd)
  · cases c with
    | nil =>
      simp only [List.append_nil] at hc
      subst hc
      exact h.rel l hl
    | cons e c =>
      simp only [List.cons_append, List.cons.injEq] at hd
      obtain ⟨rfl, rfl⟩ := hd
      exact h.acq a c l l' hc hl

theorem flat_lock {l : L} {t : List (Ev L)} (h : ∀ l, .acq l ∉ t) : Flat (.acq l :: t ++ [.rel l]) := by
  constructor
  · intro l' hl
    rw [holds_snoc] at hl
    rcases hl with hl | ⟨hl, hne⟩
    · cases hl
    · obtain ⟨a, b, he, hb⟩ := hl
      cases a with
      | nil =>
        simp only [List.nil_append, List.cons.injEq, Ev.acq.injEq] at he
        exact hne (by rw [he.1])
      | cons e a =>
        simp only [List.cons_append, List.cons.injEq] at he
        exact h l' (by rw [he.2]; simp)
  · intro a b k l' he hk
    cases a with
    | nil => exact not_holds_nil _ hk
    | cons e a =>
      simp only [List.cons_append, List.cons.injEq] at he
      have hm : Ev.acq l' ∈ t ++ [.rel l] := by rw [he.2]; simp
      rcases List.mem_append.1 hm with hm | hm
      · exact h l' hm
      · simp at hm

theorem flat_of_noNest {c : Code L} {t : List (Ev L)} {r : Bool} (h : CT c t r) (hc : NoNest c) : Flat t := by
  induction h with
  | io => exact flat_of_none (by simp)
  | other => exact flat_of_none (by simp)
  | lock h _ => exact flat_lock fun l => (lockFree_trace h hc l).1
  | seq _ _ ih1 ih2 => exact flat_append (ih1 hc.1) (ih2 hc.2)
  | seqErr _ ih => exact ih hc.1
  | skip => exact flat_of_none (by simp)
  | opt _ ih => exact ih hc

theorem thread_snoc (i j : ℕ) (w : List (ℕ × Ev L)) (e : Ev L) : thread i (w ++ [(j, e)]) = if j = i then thread i w ++ [e] else thread i w := by
  rw [thread_append]
  by_cases h : j = i <;> simp [thread, h]

theorem run_snoc {code : ℕ → Code L} {w : List (ℕ × Ev L)} (h : Run code w) {i : ℕ} {t s : List (Ev L)} {r : Bool} {e : Ev L} (ht : CT (code i) t r)
    (hp : t = thread i w ++ e :: s) (hl : ∀ l, e = .acq l → ∀ j, ¬ Holds (thread j w) l) : Run code (w ++ [(i, e)]) := by
  refine ⟨fun k => ?_, locks_snoc h.locks fun k l hk => ?_⟩
  · rw [thread_snoc]
    by_cases hk : i = k
    · subst hk
      rw [if_pos rfl]
      exact ⟨t, r, ht, ⟨s, by rw [hp]; simp⟩⟩
    · rw [if_neg hk]
      exact h.threads k
  · simp only [Prod.mk.injEq] at hk
    exact hl l hk.2

theorem progress {code : ℕ → Code L} (hn : ∀ i, NoNest (code i)) {w : List (ℕ × Ev L)} (h : Run code w) (i : ℕ) :
    Done code w i ∨ CanMove code w i ∨ ∃ j l, Holds (thread j w) l ∧ CanMove code w j := by
  obtain ⟨t, r, ht, s, hs⟩ := h.threads i
  cases s with
  | nil =>
    left
    rw [List.append_nil] at hs
    exact ⟨r, by rw [hs]; exact ht⟩
  | cons e s =>
    right
    by_cases hf : ∀ l, e = .acq l → ∀ j, ¬ Holds (thread j w) l
    · exact Or.inl ⟨e, run_snoc h ht hs.symm hf⟩
    · push Not at hf
      obtain ⟨l, rfl, j, hj⟩ := hf
      obtain ⟨t', r', ht', s', hs'⟩ := h.threads j
      have hfl := flat_of_noNest ht' (hn j)
      refine Or.inr ⟨j, l, hj, ?_⟩
      cases s' with
      | nil =>
        rw [List.append_nil] at hs'
        exact absurd (hs' ▸ hj) (hfl.rel l)
      | cons e' s' =>
        exact ⟨e', run_snoc h ht' hs'.symm fun l' he => absurd hj (hfl.acq _ s' l l' (by rw [← hs', he]))⟩

/-- The number of events of a code is at most this. -/
def size : Code L → ℕ
  | .io _ => 2
  | .other => 0
  | .lock _ c => size c + 2
  | .seq c d => size c + size d
  | .opt c => size c

theorem length_le_size {c : Code L} {t : List (Ev L)} {r : Bool} (h : CT c t r) : t.length ≤ size c := by
  induction h with
  | io => simp [size]
  | other => simp [size]
  | lock _ ih => simp [size]; omega
  | seq _ _ ih1 ih2 => simp [size]; omega
  | seqErr _ ih => simp [size]; omega
  | skip => simp
  | opt _ ih => simpa [size] using ih

theorem length_threads (N : ℕ) (w : List (ℕ × Ev L)) (h : ∀ p ∈ w, p.1 < N) : w.length = ∑ i ∈ Finset.range N, (thread i w).length := by
  induction w with
  | nil => simp [thread]
  | cons p w ih =>
    obtain ⟨j, e⟩ := p
    have ih := ih fun p hp => h p (List.mem_cons_of_mem _ hp)
    have hj : j < N := h (j, e) List.mem_cons_self
    have : ∀ i, (thread i ((j, e) :: w)).length = (if j = i then 1 else 0) + (thread i w).length := by
      intro i
      by_cases hji : j = i <;> simp [thread, hji, add_comm]
    simp only [this, Finset.sum_add_distrib, Finset.sum_ite_eq, Finset.mem_range, hj, if_true, List.length_cons, ← ih]
    omega

theorem mem_thread {w : List (ℕ × Ev L)} {p : ℕ × Ev L} (h : p ∈ w) : p.2 ∈ thread p.1 w := by
  induction w with
  | nil => simp at h
  | cons q w ih =>
    obtain ⟨j, e⟩ := q
    rcases List.mem_cons.1 h with rfl | h
    · simp [thread]
    · simp only [thread]
      split
      · exact List.mem_cons_of_mem _ (ih h)
      · exact ih h

theorem ends_first (n : ℕ) {code : ℕ → Code L} (hn : ∀ i, NoNest (code i)) : Ends (first n code) := by
  have hn' : ∀ i, NoNest (first n code i) := by
    intro i
    unfold first
    split
    · exact hn i
    · trivial
  refine ⟨⟨∑ i ∈ Finset.range n, size (code i), fun w hw => ?_⟩, fun w hw i => progress hn' hw i, fun w hw hm i => ?_⟩
  · have hlt : ∀ p ∈ w, p.1 < n := by
      intro p hp
      by_contra hge
      obtain ⟨t, r, ht, hpre⟩ := hw.threads p.1
      have hle := length_le_size ht
      rw [first, if_neg hge] at hle
      have hlen := hpre.length_le
      have hpos : 0 < (thread p.1 w).length := List.length_pos_of_mem (mem_thread hp)
      simp only [size] at hle
      omega
    rw [length_threads n w hlt]
    refine Finset.sum_le_sum fun i hi => ?_
    obtain ⟨t, r, ht, hpre⟩ := hw.threads i
    have := length_le_size ht
    rw [first, if_pos (Finset.mem_range.1 hi)] at this
    exact hpre.length_le.trans this
  · rcases progress hn' hw i with h | h | ⟨j, l, -, h⟩
    · exact h
    · exact absurd h (hm i)
    · exact absurd h (hm j)

/-! ## Theorems -/

theorem noNest_remapMain (n : ℕ) : NoNest (remapMain n) := by
  induction n with
  | zero => trivial
  | succ n ih => exact ⟨⟨trivial, trivial, trivial⟩, ih⟩

/-- C91: the threads of `Ortho._remap` end, for any numbers of bands and tiles. -/
theorem C91_ortho (b n : ℕ) : Ends (first n (remapThreads b)) := by
  refine ends_first n fun i => ?_
  unfold remapThreads
  split
  · exact noNest_remapMain b
  · exact ⟨trivial, trivial, trivial, trivial⟩

/-- C91: the threads of `PanSharpen._process` end, also when both images are one dataset. -/
theorem C91_sharp (pan ms : Name) (n : ℕ) : Ends (first n (sharpThreads pan ms)) := by
  refine ends_first n fun i => ?_
  unfold sharpThreads
  split
  · exact ⟨trivial, trivial⟩
  · exact ⟨trivial, trivial, trivial, trivial, trivial, trivial, trivial, trivial⟩

/-- C91: the threads of `PanSharpen._get_stats` end. -/
theorem C91_stats (pan ms : Name) (n : ℕ) : Ends (first n (statsThreads pan ms)) := by
  refine ends_first n fun i => ?_
  unfold statsThreads
  split
  · exact ⟨trivial, trivial⟩
  · exact ⟨trivial, trivial, trivial, trivial, trivial⟩

/-- C91: the readers of many images end. -/
theorem C91_images (im : ℕ → Name) (n : ℕ) : Ends (first n fun i => imageTask (im i)) := ends_first n fun _ => ⟨trivial, trivial⟩

/-- `Ends` says something: threads that take two locks in different orders do not always end. -/
example : ¬ Ends (first 2 fun i => if i = 0 then (.lock Lock.pan (.lock .ms .other) : Code Lock) else .lock .ms (.lock .pan .other)) := by
  intro h
  set code : ℕ → Code Lock := first 2 fun i => if i = 0 then .lock Lock.pan (.lock .ms .other) else .lock .ms (.lock .pan .other) with hcode
  have c0 : code 0 = .lock .pan (.lock .ms .other) := rfl
  have c1 : code 1 = .lock .ms (.lock .pan .other) := rfl
  have c2 : ∀ i, i ≠ 0 → i ≠ 1 → code i = .other := fun i h0 h1 => if_neg (by omega)
  have ct0 : ∀ {t r}, CT (code 0) t r → t = [.acq .pan, .acq .ms, .rel .ms, .rel .pan] := by
    intro t r ht
    rw [c0] at ht
    cases ht with | lock ht => cases ht with | lock ht => cases ht; rfl
  have ct1 : ∀ {t r}, CT (code 1) t r → t = [.acq .ms, .acq .pan, .rel .pan, .rel .ms] := by
    intro t r ht
    rw [c1] at ht
    cases ht with | lock ht => cases ht with | lock ht => cases ht; rfl
  have ct2 : ∀ {i t r}, i ≠ 0 → i ≠ 1 → CT (code i) t r → t = [] := by
    intro i t r h0 h1 ht
    rw [c2 i h0 h1] at ht
    cases ht; rfl
  have hw : Run code [(0, .acq .pan), (1, .acq .ms)] := by
    refine ⟨fun i => ?_, locks_snoc (w := [_]) (locks_snoc (w := []) (no_locks (by simp)) fun _ l _ _ => not_holds_nil l) ?_⟩
    · by_cases h0 : i = 0
      · subst h0
        exact ⟨_, false, by rw [c0]; exact .lock (.lock .other), ⟨[.acq .ms, .rel .ms, .rel .pan], rfl⟩⟩
      · by_cases h1 : i = 1
        · subst h1
          exact ⟨_, false, by rw [c1]; exact .lock (.lock .other), ⟨[.acq .pan, .rel .pan, .rel .ms], rfl⟩⟩
        · exact ⟨[], false, by rw [c2 i h0 h1]; exact .other, by simp [thread, Ne.symm h0, Ne.symm h1]⟩
    · intro i l hl j
      simp only [Prod.mk.injEq, Ev.acq.injEq] at hl
      obtain ⟨-, rfl⟩ := hl
      refine not_holds_of_notMem fun hm => ?_
      simp only [thread] at hm
      split at hm <;> simp at hm
  have hstuck : ∀ i, ¬ CanMove code [(0, .acq .pan), (1, .acq .ms)] i := by
    rintro i ⟨e, he⟩
    obtain ⟨t, r, ht, hp⟩ := he.threads i
    rw [thread_snoc, if_pos rfl] at hp
    by_cases h0 : i = 0
    · subst h0
      rw [ct0 ht] at hp
      have : e = .acq .ms := by
        obtain ⟨s, hs⟩ := hp
        simp only [thread, if_true, if_false, one_ne_zero, List.cons_append, List.nil_append, List.cons.injEq, true_and] at hs
        exact hs.1
      subst this
      exact he.locks [(0, .acq .pan), (1, .acq .ms)] [] 0 .ms rfl 1 ⟨[], [], rfl, by simp⟩
    · by_cases h1 : i = 1
      · subst h1
        rw [ct1 ht] at hp
        have : e = .acq .pan := by
          obtain ⟨s, hs⟩ := hp
          simp only [thread, if_true, if_false, zero_ne_one, List.cons_append, List.nil_append, List.cons.injEq, true_and] at hs
          exact hs.1
        subst this
        exact he.locks [(0, .acq .pan), (1, .acq .ms)] [] 1 .pan rfl 0 ⟨[], [], rfl, by simp⟩
      · rw [ct2 h0 h1 ht] at hp
        simp at hp
  obtain ⟨r, hd⟩ := h.done _ hw hstuck 0
  have := ct0 hd
  simp [thread] at this

end Verif.Locks
