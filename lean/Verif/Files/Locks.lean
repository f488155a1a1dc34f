import Verif.Files.Handles

/-!
# C89: a dataset is used by one thread at a time
-/

set_option autoImplicit false

namespace Verif.Locks

open Verif.Handles (Name nSrc nOut nPan nMs nIm)

/-! ## Model -/

/-- What a thread does with a dataset: GDAL calls that transfer pixels, which rasterio makes without the GIL, or calls that get metadata. -/
inductive Op
  | read
  | write
  | writeMask
  | info
  deriving DecidableEq

structure Use where
  ds : Name
  op : Op
  deriving DecidableEq

/-- Uses take time; locks are Python's `threading.Lock`. -/
inductive Ev (L : Type)
  | start (u : Use)
  | finish (u : Use)
  | acq (l : L)
  | rel (l : L)
  deriving DecidableEq

/-- The code of a thread: a call on a dataset, which may raise; any other code, which may raise; `with lock:`; a sequence; an `if`. -/
inductive Code (L : Type)
  | io (u : Use)
  | other
  | lock (l : L) (c : Code L)
  | seq (c d : Code L)
  | opt (c : Code L)

infixr:60 " ;; " => Code.seq

/-- The events of a thread, and if it raised. -/
inductive CT {L : Type} : Code L → List (Ev L) → Bool → Prop
  | io {u : Use} {r : Bool} : CT (.io u) [.start u, .finish u] r
  | other {r : Bool} : CT .other [] r
  | lock {l : L} {c : Code L} {t : List (Ev L)} {r : Bool} : CT c t r → CT (.lock l c) (.acq l :: t ++ [.rel l]) r
  | seq {c d : Code L} {t t' : List (Ev L)} {r : Bool} : CT c t false → CT d t' r → CT (.seq c d) (t ++ t') r
  | seqErr {c d : Code L} {t : List (Ev L)} : CT c t true → CT (.seq c d) t true
  | skip {c : Code L} : CT (.opt c) [] false
  | opt {c : Code L} {t : List (Ev L)} {r : Bool} : CT c t r → CT (.opt c) t r

/-- The locks of `PanSharpen` (orthority/pan_sharp.py:77-79) and of `Ortho` (orthority/ortho.py:101). -/
inductive Lock
  | pan
  | ms
  | out
  deriving DecidableEq

/-- `Ortho._remap_tile`, orthority/ortho.py:345-399. -/
def remapTile : Code Lock :=
  .io ⟨nOut, .info⟩ ;; .other ;; .lock .out (.io ⟨nOut, .write⟩ ;; .opt (.io ⟨nOut, .writeMask⟩))

/-- The thread of `Ortho._remap` (orthority/ortho.py:434-482), in its pool: it reads bands, with `n` of them left. -/
def remapMain : ℕ → Code Lock
  | 0 => .other
  | n + 1 => (.io ⟨nOut, .info⟩ ;; .io ⟨nSrc, .read⟩ ;; .other) ;; remapMain n

/-- `get_tile_stats`, orthority/pan_sharp.py:241-270, of a panchromatic and a multispectral dataset; reading from a `WarpedVRT` reads from its dataset. -/
def statsTile (pan ms : Name) : Code Lock := .lock .pan (.io ⟨pan, .read⟩) ;; .lock .ms (.io ⟨ms, .read⟩) ;; .io ⟨pan, .info⟩ ;; .io ⟨ms, .info⟩ ;; .other

/-- `PanSharpen._process_tile`, orthority/pan_sharp.py:480-515. -/
def sharpTile (pan ms : Name) : Code Lock :=
  .lock .pan (.io ⟨pan, .read⟩) ;; .lock .ms (.io ⟨ms, .read⟩) ;; .io ⟨pan, .info⟩ ;; .io ⟨ms, .info⟩ ;; .other ;; .io ⟨nOut, .info⟩ ;;
    .lock .out (.io ⟨nOut, .write⟩ ;; .opt (.io ⟨nOut, .writeMask⟩))

/-- Tasks of `read_im_rpc_param`, `read_im_gcps` and `ExifReader` (orthority/param_io.py:348-369, 466-495 and 1308-1332). -/
def imageTask (im : Name) : Code Lock := .io ⟨im, .info⟩ ;; .other

/-! ## Specification -/

variable {L : Type}

/-- The events of thread `i`. -/
def thread (i : ℕ) : List (ℕ × Ev L) → List (Ev L)
  | [] => []
  | (j, e) :: w => if j = i then e :: thread i w else thread i w

/-- The thread has acquired `l`, and not released it since. -/
def Holds (t : List (Ev L)) (l : L) : Prop := ∃ a b, t = a ++ .acq l :: b ∧ .rel l ∉ b

/-- The thread has started `u`, and not finished it. -/
def InUse (t : List (Ev L)) (u : Use) : Prop := ∃ a b, t = a ++ .start u :: b ∧ .finish u ∉ b

/-- What threads with these codes may have done at some moment: any interleaving in which a lock is acquired only when no thread holds it. -/
structure Run (code : ℕ → Code L) (w : List (ℕ × Ev L)) : Prop where
  threads : ∀ i, ∃ t r, CT (code i) t r ∧ thread i w <+: t
  locks : ∀ a b i l, w = a ++ (i, .acq l) :: b → ∀ j, ¬ Holds (thread j a) l

/-- Pixels of a dataset are transferred by one thread at a time. -/
def Exclusive (x : Name) (w : List (ℕ × Ev L)) : Prop :=
  ∀ i j u v, i ≠ j → u.ds = x → v.ds = x → u.op ≠ .info → v.op ≠ .info → InUse (thread i w) u → ¬ InUse (thread j w) v

/-! ## Lemmas -/

/-- `t` uses `S` only while it holds `l`. -/
structure Guarded (l : L) (S : Set Use) (t : List (Ev L)) : Prop where
  use : ∀ a u, a <+: t → u ∈ S → InUse a u → Holds a l
  rel : ¬ Holds t l
  fin : ∀ u ∈ S, ¬ InUse t u

theorem thread_append (i : ℕ) (w w' : List (ℕ × Ev L)) : thread i (w ++ w') = thread i w ++ thread i w' := by
  induction w with
  | nil => rfl
  | cons p w ih =>
    obtain ⟨j, e⟩ := p
    simp only [List.cons_append, thread]
    split <;> simp [ih]

theorem holds_snoc (t : List (Ev L)) (e : Ev L) (l : L) : Holds (t ++ [e]) l ↔ e = .acq l ∨ (Holds t l ∧ e ≠ .rel l) := by
  constructor
  · rintro ⟨a, b, h1, h2⟩
    rcases List.eq_nil_or_concat b with rfl | ⟨b, e', rfl⟩
    · have := List.append_inj_right' h1 rfl
      left
      simpa using this
    · rw [List.concat_eq_append, show a ++ Ev.acq l :: (b ++ [e']) = (a ++ Ev.acq l :: b) ++ [e'] by simp] at h1
      have e1 := List.append_inj_left' h1 rfl
      have e2 := List.append_inj_right' h1 rfl
      simp only [List.cons.injEq, and_true] at e2
      subst e2
      simp only [List.concat_eq_append, List.mem_append, List.mem_singleton, not_or] at h2
      exact Or.inr ⟨⟨a, b, e1, h2.1⟩, fun h => h2.2 h.symm⟩
  · rintro (rfl | ⟨⟨a, b, rfl, h2⟩, h3⟩)
    · exact ⟨t, [], rfl, by simp⟩
    · refine ⟨a, b ++ [e], by simp, ?_⟩
      simp only [List.mem_append, List.mem_singleton, not_or]
      exact ⟨h2, fun h => h3 h.symm⟩

theorem inUse_snoc (t : List (Ev L)) (e : Ev L) (u : Use) : InUse (t ++ [e]) u ↔ e = .start u ∨ (InUse t u ∧ e ≠ .finish u) := by
  constructor
  · rintro ⟨a, b, h1, h2⟩
    rcases List.eq_nil_or_concat b with rfl | ⟨b, e', rfl⟩
    · have := List.append_inj_right' h1 rfl
      left
      simpa using this
    · rw [List.concat_eq_append, show a ++ Ev.start u :: (b ++ [e']) = (a ++ Ev.start u :: b) ++ [e'] by simp] at h1
      have e1 := List.append_inj_left' h1 rfl
      have e2 := List.append_inj_right' h1 rfl
      simp only [List.cons.injEq, and_true] at e2
      subst e2
      simp only [List.concat_eq_append, List.mem_append, List.mem_singleton, not_or] at h2
      exact Or.inr ⟨⟨a, b, e1, h2.1⟩, fun h => h2.2 h.symm⟩
  · rintro (rfl | ⟨⟨a, b, rfl, h2⟩, h3⟩)
    · exact ⟨t, [], rfl, by simp⟩
    · refine ⟨a, b ++ [e], by simp, ?_⟩
      simp only [List.mem_append, List.mem_singleton, not_or]
      exact ⟨h2, fun h => h3 h.symm⟩

theorem not_holds_nil (l : L) : ¬ Holds ([] : List (Ev L)) l := by
  rintro ⟨a, b, h, -⟩
  simp at h

theorem not_inUse_nil (u : Use) : ¬ InUse ([] : List (Ev L)) u := by
  rintro ⟨a, b, h, -⟩
  simp at h

/-- At most one thread holds a lock. -/
theorem holder_unique {w : List (ℕ × Ev L)} (h : ∀ a b i l, w = a ++ (i, .acq l) :: b → ∀ j, ¬ Holds (thread j a) l) :
    ∀ (l : L) (i j : ℕ), Holds (thread i w) l → Holds (thread j w) l → i = j := by
  induction w using List.reverseRecOn with
  | nil => exact fun l i j hi _ => absurd hi (not_holds_nil l)
  | append_singleton w p ih =>
    obtain ⟨k, e⟩ := p
    intro l i j hi hj
    have ih := ih (fun a b i l hw => h a (b ++ [(k, e)]) i l (by rw [hw]; simp)) l i j
    have hone : ∀ m : ℕ, Holds (thread m (w ++ [(k, e)])) l → (m = k ∧ e = .acq l) ∨ Holds (thread m w) l := by
      intro m hm
      rw [thread_append] at hm
      simp only [thread] at hm
      split at hm
      · rename_i hk
        rw [holds_snoc] at hm
        rcases hm with h | h
        · exact Or.inl ⟨hk.symm, h⟩
        · exact Or.inr h.1
      · rw [List.append_nil] at hm
        exact Or.inr hm
    rcases hone i hi with ⟨rfl, he⟩ | hi'
    · rcases hone j hj with ⟨rfl, _⟩ | hj'
      · rfl
      · subst he
        exact absurd hj' (h w [] i l rfl j)
    · rcases hone j hj with ⟨rfl, he⟩ | hj'
      · subst he
        exact absurd hi' (h w [] j l rfl i)
      · exact ih hi' hj'

theorem holds_append_left {t t' : List (Ev L)} {l : L} (h : Holds t' l) : Holds (t ++ t') l := by
  obtain ⟨a, b, rfl, hb⟩ := h
  exact ⟨t ++ a, b, by simp, hb⟩

theorem inUse_append {t t' : List (Ev L)} {u : Use} (h : InUse (t ++ t') u) : InUse t u ∨ InUse t' u := by
  obtain ⟨a, b, h1, hb⟩ := h
  rcases List.append_eq_append_iff.1 h1 with ⟨c, hc, hd⟩ | ⟨c, hc, hd⟩
  · exact Or.inr ⟨c, b, hd, hb⟩
  · cases c with
    | nil =>
      right
      refine ⟨[], b, ?_, hb⟩
      simpa using hd.symm
    | cons e c =>
      simp only [List.cons_append, List.cons.injEq] at hd
      left
      refine ⟨a, c, by rw [hc, hd.1], fun h => hb ?_⟩
      rw [hd.2]
      exact List.mem_append_left _ h

theorem holds_append {t t' : List (Ev L)} {l : L} (h : Holds (t ++ t') l) : Holds t l ∨ Holds t' l := by
  obtain ⟨a, b, h1, hb⟩ := h
  rcases List.append_eq_append_iff.1 h1 with ⟨c, hc, hd⟩ | ⟨c, hc, hd⟩
  · exact Or.inr ⟨c, b, hd, hb⟩
  · cases c with
    | nil =>
      right
      refine ⟨[], b, ?_, hb⟩
      simpa using hd.symm
    | cons e c =>
      simp only [List.cons_append, List.cons.injEq] at hd
      left
      refine ⟨a, c, by rw [hc, hd.1], fun h => hb ?_⟩
      rw [hd.2]
      exact List.mem_append_left _ h

theorem guarded_append {l : L} {S : Set Use} {t t' : List (Ev L)} (h : Guarded l S t) (h' : Guarded l S t') : Guarded l S (t ++ t') := by
  refine ⟨fun a u ha hu hi => ?_, fun hh => ?_, fun u hu hi => ?_⟩
  · have ha' : a <+: t ∨ ∃ c, a = t ++ c ∧ c <+: t' := by
      obtain ⟨s, hs⟩ := ha
      rcases List.append_eq_append_iff.1 hs with ⟨c, hc, _⟩ | ⟨c, hc, hd⟩
      · exact Or.inl ⟨c, hc.symm⟩
      · exact Or.inr ⟨c, hc, ⟨s, hd.symm⟩⟩
    rcases ha' with ha | ⟨c, rfl, hc⟩
    · exact h.use a u ha hu hi
    · rcases inUse_append hi with hi | hi
      · exact absurd hi (h.fin u hu)
      · exact holds_append_left (h'.use c u hc hu hi)
  · rcases holds_append hh with hh | hh
    · exact h.rel hh
    · exact h'.rel hh
  · rcases inUse_append hi with hi | hi
    · exact h.fin u hu hi
    · exact h'.fin u hu hi

/-- Each use of `S` in `c` is inside `with l`, and no other `with l` is inside `with l`; `d` says that we are inside. -/
def Safe (l : L) (S : Set Use) : Bool → Code L → Prop
  | d, .io u => d = false → u ∉ S
  | _, .other => True
  | d, .lock l' c => (l' = l → d = false ∧ Safe l S true c) ∧ (l' ≠ l → Safe l S d c)
  | d, .seq c c' => Safe l S d c ∧ Safe l S d c'
  | d, .opt c => Safe l S d c

/-- The uses of `S` in `t` are finished, and `l` is not touched. -/
structure Inside (l : L) (S : Set Use) (t : List (Ev L)) : Prop where
  acq : .acq l ∉ t
  rel : .rel l ∉ t
  fin : ∀ u ∈ S, ¬ InUse t u

theorem inside_of_safe {l : L} {S : Set Use} {c : Code L} {t : List (Ev L)} {r : Bool} (h : CT c t r) (hs : Safe l S true c) : Inside l S t := by
  have happ : ∀ {t t' : List (Ev L)}, Inside l S t → Inside l S t' → Inside l S (t ++ t') := fun h h' =>
    ⟨by simp [h.acq, h'.acq], by simp [h.rel, h'.rel], fun u hu hi => (inUse_append hi).elim (h.fin u hu) (h'.fin u hu)⟩
  have hnil : Inside l S [] := ⟨by simp, by simp, fun u _ => not_inUse_nil u⟩
  induction h with
  | @io v r =>
    refine ⟨by simp, by simp, fun u hu hi => ?_⟩
    rw [show ([Ev.start v, Ev.finish v] : List (Ev L)) = ([] ++ [Ev.start v]) ++ [Ev.finish v] from rfl, inUse_snoc, inUse_snoc] at hi
    rcases hi with h | ⟨h | ⟨h, -⟩, h'⟩
    · cases h
    · cases h
      exact h' rfl
    · exact not_inUse_nil u h
  | other => exact hnil
  | @lock l' c t r h ih =>
    by_cases hl : l' = l
    · exact absurd (hs.1 hl).1 (by decide)
    · have hi := ih (hs.2 hl)
      refine ⟨?_, ?_, fun u hu hi' => ?_⟩
      · simp [hi.acq]
        exact fun h => hl h.symm
      · simp [hi.rel]
        exact fun h => hl h.symm
      · rw [inUse_snoc] at hi'
        rcases hi' with h | ⟨h, -⟩
        · cases h
        · rw [show Ev.acq l' :: t = [Ev.acq l'] ++ t from rfl] at h
          rcases inUse_append h with h | h
          · rw [show ([Ev.acq l'] : List (Ev L)) = [] ++ [Ev.acq l'] from rfl, inUse_snoc] at h
            rcases h with h | ⟨h, -⟩
            · cases h
            · exact not_inUse_nil u h
          · exact hi.fin u hu h
  | seq _ _ ih1 ih2 => exact happ (ih1 hs.1) (ih2 hs.2)
  | seqErr _ ih => exact ih hs.1
  | skip => exact hnil
  | opt _ ih => exact ih hs

theorem mem_of_inUse {t : List (Ev L)} {u : Use} (h : InUse t u) : .start u ∈ t := by
  obtain ⟨a, b, rfl, -⟩ := h
  simp

theorem guarded_of_none {l : L} {S : Set Use} {t : List (Ev L)} (h1 : ∀ u ∈ S, .start u ∉ t) (h2 : .acq l ∉ t) : Guarded l S t := by
  refine ⟨fun a u ha hu hi => absurd (ha.subset (mem_of_inUse hi)) (h1 u hu), ?_, fun u hu hi => h1 u hu (mem_of_inUse hi)⟩
  rintro ⟨a, b, rfl, -⟩
  exact h2 (by simp)

theorem guarded_of_safe {l : L} {S : Set Use} {c : Code L} {t : List (Ev L)} {r : Bool} (h : CT c t r) (hs : Safe l S false c) : Guarded l S t := by
  have hnil : Guarded l S [] := guarded_of_none (by simp) (by simp)
  induction h with
  | @io v r =>
    refine guarded_of_none (fun u hu hm => hs rfl ?_) (by simp)
    simp only [List.mem_cons, Ev.start.injEq, reduceCtorEq, List.not_mem_nil, or_false] at hm
    exact hm ▸ hu
  | other => exact hnil
  | @lock l' c t r h ih =>
    by_cases hl : l' = l
    · subst hl
      have hin := inside_of_safe h (hs.1 rfl).2
      have hfin : ∀ u ∈ S, ¬ InUse (.acq l' :: t) u := by
        intro u hu hi
        rw [show Ev.acq l' :: t = [Ev.acq l'] ++ t from rfl] at hi
        rcases inUse_append hi with hi | hi
        · simpa using mem_of_inUse hi
        · exact hin.fin u hu hi
      have hfin' : ∀ u ∈ S, ¬ InUse (.acq l' :: t ++ [.rel l']) u := by
        intro u hu hi
        rw [inUse_snoc] at hi
        rcases hi with h | ⟨h, -⟩
        · cases h
        · exact hfin u hu h
      refine ⟨fun a u ha hu hi => ?_, fun hh => ?_, hfin'⟩
      · rcases List.prefix_concat_iff.1 ha with rfl | ha
        · exact absurd hi (hfin' u hu)
        · cases a with
          | nil => exact absurd hi (not_inUse_nil u)
          | cons e a =>
            rw [List.cons_prefix_cons] at ha
            exact ⟨[], a, by rw [ha.1]; rfl, fun hm => hin.rel (ha.2.subset hm)⟩
      · rw [holds_snoc] at hh
        rcases hh with h | h
        · cases h
        · exact h.2 rfl
    · have hg := ih (hs.2 hl)
      refine guarded_append (guarded_append (t := [.acq l']) (guarded_of_none (by simp) ?_) hg) (guarded_of_none (by simp) (by simp))
      simp only [List.mem_cons, Ev.acq.injEq, List.not_mem_nil, or_false]
      exact fun h => hl h.symm
  | seq _ _ ih1 ih2 => exact guarded_append (ih1 hs.1) (ih2 hs.2)
  | seqErr _ ih => exact ih hs.1
  | skip => exact hnil
  | opt _ ih => exact ih hs

theorem run_exclusive {code : ℕ → Code L} {w : List (ℕ × Ev L)} (h : Run code w) {l : L} {S : Set Use} (hs : ∀ i, Safe l S false (code i)) {i j : ℕ} (hij : i ≠ j)
    {v : Use} (hv : v ∈ S) (hi : Holds (thread i w) l) : ¬ InUse (thread j w) v := by
  intro hj
  obtain ⟨t, r, ht, hp⟩ := h.threads j
  exact hij (holder_unique h.locks l i j hi ((guarded_of_safe ht (hs j)).use _ v hp hv hj))

theorem run_holds {code : ℕ → Code L} {w : List (ℕ × Ev L)} (h : Run code w) {l : L} {S : Set Use} (hs : ∀ i, Safe l S false (code i)) {i : ℕ}
    {u : Use} (hu : u ∈ S) (hi : InUse (thread i w) u) : Holds (thread i w) l := by
  obtain ⟨t, r, ht, hp⟩ := h.threads i
  exact (guarded_of_safe ht (hs i)).use _ u hp hu hi

/-- The uses in a code. -/
def uses : Code L → List Use
  | .io u => [u]
  | .other => []
  | .lock _ c => uses c
  | .seq c d => uses c ++ uses d
  | .opt c => uses c

theorem start_uses {c : Code L} {t : List (Ev L)} {r : Bool} (h : CT c t r) {u : Use} (hu : .start u ∈ t) : u ∈ uses c := by
  induction h with
  | io => simpa [uses] using hu
  | other => simp at hu
  | lock _ ih => exact ih (by simpa using hu)
  | seq _ _ ih1 ih2 => exact List.mem_append.2 ((List.mem_append.1 hu).imp ih1 ih2)
  | seqErr _ ih => exact List.mem_append_left _ (ih hu)
  | skip => simp at hu
  | opt _ ih => exact ih hu

theorem run_uses {code : ℕ → Code L} {w : List (ℕ × Ev L)} (h : Run code w) {i : ℕ} {u : Use} (hu : InUse (thread i w) u) : u ∈ uses (code i) := by
  obtain ⟨t, r, ht, hp⟩ := h.threads i
  exact start_uses ht (hp.subset (mem_of_inUse hu))

/-- Transfers of the pixels of `x`. -/
def transfers (x : Name) : Set Use := {u | u.ds = x ∧ u.op ≠ .info}

theorem exclusive_of_safe {code : ℕ → Code L} {w : List (ℕ × Ev L)} (h : Run code w) {l : L} {x : Name} (hs : ∀ i, Safe l (transfers x) false (code i)) :
    Exclusive x w :=
  fun _ _ _ _ hij hu hv hu' hv' hi hj => run_exclusive h hs hij ⟨hv, hv'⟩ (run_holds h hs ⟨hu, hu'⟩ hi) hj

/-! ## Theorems -/

/-- The threads of `_remap`: `n` bands, and any number of tiles. -/
def remapThreads (n : ℕ) (i : ℕ) : Code Lock := if i = 0 then remapMain n else remapTile

theorem remapMain_uses (n : ℕ) : ∀ u ∈ uses (remapMain n), u = ⟨nOut, .info⟩ ∨ u = ⟨nSrc, .read⟩ := by
  induction n with
  | zero => simp [remapMain, uses]
  | succ n ih =>
    intro u hu
    simp only [remapMain, uses, List.mem_append, List.mem_singleton, List.not_mem_nil, or_false] at hu
    rcases hu with (h | h) | h
    · exact Or.inl h
    · exact Or.inr h
    · exact ih u h

theorem safe_remapMain (n : ℕ) : Safe Lock.out (transfers nOut) false (remapMain n) := by
  induction n with
  | zero => trivial
  | succ n ih =>
    refine ⟨⟨fun _ h => h.2 rfl, fun _ h => ?_, trivial⟩, ih⟩
    exact absurd h.1 (by decide)

theorem safe_remap (n i : ℕ) : Safe Lock.out (transfers nOut) false (remapThreads n i) := by
  unfold remapThreads
  split
  · exact safe_remapMain n
  · exact ⟨fun _ h => h.2 rfl, trivial, fun _ => ⟨rfl, fun h => absurd h (by decide), fun h => absurd h (by decide)⟩, fun h => absurd rfl h⟩

/-- C89: in `Ortho._remap`, at every moment of every execution, at most one thread reads the source image, at most one writes to the ortho, and while a thread writes the data and
mask of a tile no other writes to the ortho. -/
theorem C89_ortho (n : ℕ) (w : List (ℕ × Ev Lock)) (h : Run (remapThreads n) w) : Exclusive nSrc w ∧ Exclusive nOut w ∧
    ∀ i j u, i ≠ j → Holds (thread i w) .out → u.ds = nOut → u.op ≠ .info → ¬ InUse (thread j w) u := by
  refine ⟨fun i j u v hij hu hv hu' hv' hi hj => ?_, exclusive_of_safe h (safe_remap n), fun i j u hij hi hu hu' =>
    run_exclusive h (safe_remap n) hij ⟨hu, hu'⟩ hi⟩
  have key : ∀ k u, u.ds = nSrc → InUse (thread k w) u → k = 0 := by
    intro k u hu hk
    by_contra hne
    have := run_uses h hk
    simp only [remapThreads, hne, if_false, remapTile, uses, List.mem_append, List.mem_singleton, List.not_mem_nil, false_or] at this
    rcases this with rfl | rfl | rfl <;> exact absurd hu (by decide)
  exact hij ((key i u hu hi).trans (key j v hv hj).symm)

/-- The threads of `PanSharpen.process`: that of the caller, and any number of tiles. -/
def sharpThreads (pan ms : Name) (i : ℕ) : Code Lock := if i = 0 then .io ⟨nOut, .info⟩ ;; .other else sharpTile pan ms

/-- The threads of `PanSharpen._get_stats`. -/
def statsThreads (pan ms : Name) (i : ℕ) : Code Lock := if i = 0 then .io ⟨ms, .info⟩ ;; .other else statsTile pan ms

/-- C89: in `PanSharpen.process`, at most one thread reads from each image, and at most one writes to the output. -/
theorem C89_sharp_partial (pan ms : Name) (h1 : pan ≠ ms) (h2 : pan ≠ nOut) (h3 : ms ≠ nOut) (w : List (ℕ × Ev Lock)) (h : Run (sharpThreads pan ms) w) :
    Exclusive pan w ∧ Exclusive ms w ∧ Exclusive nOut w ∧
      ∀ i j u, i ≠ j → Holds (thread i w) .out → u.ds = nOut → u.op ≠ .info → ¬ InUse (thread j w) u := by
  have hs : ∀ i, Safe Lock.out (transfers nOut) false (sharpThreads pan ms i) := by
    intro i
    unfold sharpThreads
    split
    · exact ⟨fun _ h => h.2 rfl, trivial⟩
    · simp only [sharpTile, Safe, transfers, Set.mem_ofPred_eq]
      simp [h2, h3]
  refine ⟨exclusive_of_safe (l := Lock.pan) h fun i => ?_, exclusive_of_safe (l := Lock.ms) h fun i => ?_, exclusive_of_safe h hs, fun i j u hij hi hu hu' =>
    run_exclusive h hs hij ⟨hu, hu'⟩ hi⟩
  · unfold sharpThreads
    split
    · exact ⟨fun _ h => h.2 rfl, trivial⟩
    · simp only [sharpTile, Safe, transfers, Set.mem_ofPred_eq]
      simp [h1.symm, h2.symm]
  · unfold sharpThreads
    split
    · exact ⟨fun _ h => h.2 rfl, trivial⟩
    · simp only [sharpTile, Safe, transfers, Set.mem_ofPred_eq]
      simp [h1, h3.symm]

/-- C89: the same for the statistics. -/
theorem C89_stats_partial (pan ms : Name) (h1 : pan ≠ ms) (w : List (ℕ × Ev Lock)) (h : Run (statsThreads pan ms) w) : Exclusive pan w ∧ Exclusive ms w := by
  refine ⟨exclusive_of_safe (l := Lock.pan) h fun i => ?_, exclusive_of_safe (l := Lock.ms) h fun i => ?_⟩
  · unfold statsThreads
    split
    · exact ⟨fun _ h => h.2 rfl, trivial⟩
    · simp only [statsTile, Safe, transfers, Set.mem_ofPred_eq]
      simp [h1.symm]
  · unfold statsThreads
    split
    · exact ⟨fun _ h => h.2 rfl, trivial⟩
    · simp only [statsTile, Safe, transfers, Set.mem_ofPred_eq]
      simp [h1]

/-- C89: readers of many images use each from one thread, if they are different datasets. -/
theorem C89_images_partial (im : ℕ → Name) (hd : ∀ i j, im i = im j → i = j) (w : List (ℕ × Ev Lock)) (h : Run (fun i => imageTask (im i)) w) (i j : ℕ) (u v : Use)
    (hi : InUse (thread i w) u) (hj : InUse (thread j w) v) (huv : u.ds = v.ds) : i = j := by
  have h1 := run_uses h hi
  have h2 := run_uses h hj
  simp only [imageTask, uses, List.append_nil, List.mem_singleton] at h1 h2
  rw [h1, h2] at huv
  exact hd i j huv

theorem exists_CT (c : Code L) : ∃ t, CT c t false := by
  induction c with
  | io u => exact ⟨_, .io⟩
  | other => exact ⟨_, .other⟩
  | lock l c ih =>
    obtain ⟨t, h⟩ := ih
    exact ⟨_, .lock h⟩
  | seq c d ih1 ih2 =>
    obtain ⟨t, h⟩ := ih1
    obtain ⟨t', h'⟩ := ih2
    exact ⟨_, .seq h h'⟩
  | opt c _ => exact ⟨_, .skip⟩

theorem locks_snoc {w : List (ℕ × Ev L)} {p : ℕ × Ev L} (h : ∀ a b i l, w = a ++ (i, .acq l) :: b → ∀ j, ¬ Holds (thread j a) l)
    (hp : ∀ i l, p = (i, .acq l) → ∀ j, ¬ Holds (thread j w) l) : ∀ a b i l, w ++ [p] = a ++ (i, .acq l) :: b → ∀ j, ¬ Holds (thread j a) l := by
  intro a b i l hw
  rcases List.eq_nil_or_concat b with rfl | ⟨b, e', rfl⟩
  · have e1 := List.append_inj_left' hw rfl
    have e2 := List.append_inj_right' hw rfl
    rw [← e1]
    exact hp i l (by simpa using e2)
  · rw [List.concat_eq_append, show a ++ (i, Ev.acq l) :: (b ++ [e']) = (a ++ (i, Ev.acq l) :: b) ++ [e'] by simp] at hw
    exact h a b i l (List.append_inj_left' hw rfl)

theorem no_locks {w : List (ℕ × Ev L)} (h : ∀ i l, (i, .acq l) ∉ w) : ∀ a b i l, w = a ++ (i, .acq l) :: b → ∀ j, ¬ Holds (thread j a) l := by
  rintro a b i l rfl
  exact absurd (by simp) (h i l)

theorem not_holds_of_notMem {t : List (Ev L)} {l : L} (h : .acq l ∉ t) : ¬ Holds t l := by
  rintro ⟨a, b, rfl, -⟩
  exact h (by simp)

/-- Metadata of the ortho is read by one thread while another writes to it: `ortho_im.profile` is read before the lock is taken (orthority/ortho.py:360 and 364). -/
theorem C89_info_fails (n : ℕ) : ∃ w, Run (remapThreads n) w ∧ InUse (thread 1 w) ⟨nOut, .write⟩ ∧ InUse (thread 2 w) ⟨nOut, .info⟩ := by
  let w : List (ℕ × Ev Lock) := [(1, .start ⟨nOut, .info⟩), (1, .finish ⟨nOut, .info⟩), (1, .acq .out), (1, .start ⟨nOut, .write⟩)] ++ [(2, .start ⟨nOut, .info⟩)]
  refine ⟨w, ⟨fun i => ?_, ?_⟩, ⟨[.start ⟨nOut, .info⟩, .finish ⟨nOut, .info⟩, .acq .out], [], rfl, by simp⟩, ⟨[], [], rfl, by simp⟩⟩
  · by_cases h1 : i = 1
    · subst h1
      exact ⟨_, false, .seq .io (.seq .other (.lock (.seq .io .skip))), ⟨[.finish ⟨nOut, .write⟩, .rel .out], rfl⟩⟩
    · by_cases h2 : i = 2
      · subst h2
        exact ⟨_, true, .seqErr .io, ⟨[.finish ⟨nOut, .info⟩], rfl⟩⟩
      · obtain ⟨t, ht⟩ := exists_CT (remapThreads n i)
        refine ⟨t, false, ht, ?_⟩
        have : thread i w = [] := by simp [w, thread, Ne.symm h1, Ne.symm h2]
        rw [this]
        exact List.nil_prefix
  · refine locks_snoc (locks_snoc (w := [_, _, _]) (locks_snoc (w := [_, _]) (no_locks (by simp)) ?_) (by simp)) (by simp)
    intro i l _ j
    refine not_holds_of_notMem fun h => ?_
    simp only [thread] at h
    split at h <;> simp at h

/-- `PanSharpen` has different locks for its images, also when both are one dataset of the caller, which is then read by two threads at a time. -/
theorem C89_same_fails (p : Name) : ∃ w, Run (sharpThreads p p) w ∧ ¬ Exclusive p w := by
  let w : List (ℕ × Ev Lock) := ([(1, .acq .pan)] ++ [(1, .start ⟨p, .read⟩), (1, .finish ⟨p, .read⟩), (1, .rel .pan), (1, .acq .ms), (1, .start ⟨p, .read⟩),
    (2, .acq .pan), (2, .start ⟨p, .read⟩)])
  refine ⟨w, ⟨fun i => ?_, ?_⟩, fun h => h 1 2 ⟨p, .read⟩ ⟨p, .read⟩ (by decide) rfl rfl (by simp) (by simp) ?_ ?_⟩
  · by_cases h1 : i = 1
    · subst h1
      exact ⟨_, true, .seq (.lock .io) (.seqErr (.lock .io)), ⟨[.finish ⟨p, .read⟩, .rel .ms], rfl⟩⟩
    · by_cases h2 : i = 2
      · subst h2
        exact ⟨_, true, .seqErr (.lock .io), ⟨[.finish ⟨p, .read⟩, .rel .pan], rfl⟩⟩
      · obtain ⟨t, ht⟩ := exists_CT (sharpThreads p p i)
        refine ⟨t, false, ht, ?_⟩
        have : thread i w = [] := by simp [w, thread, Ne.symm h1, Ne.symm h2]
        rw [this]
        exact List.nil_prefix
  · refine locks_snoc (w := [_, _, _, _, _, _, _]) (locks_snoc (w := [_, _, _, _, _, _]) (locks_snoc (w := [_, _, _, _, _]) (locks_snoc (w := [_, _, _, _])
      (locks_snoc (w := [_, _, _]) (locks_snoc (w := [_, _]) (locks_snoc (w := [_]) (locks_snoc (w := []) (no_locks (by simp)) ?_) ?_) ?_) ?_) ?_) ?_) ?_) ?_
    · exact fun i l _ j => not_holds_nil l
    · simp
    · simp
    · simp
    · intro i l hl j
      simp only [Prod.mk.injEq, Ev.acq.injEq] at hl
      obtain ⟨-, rfl⟩ := hl
      refine not_holds_of_notMem fun h => ?_
      simp only [thread] at h
      split at h <;> simp at h
    · simp
    · intro i l hl j
      simp only [Prod.mk.injEq, Ev.acq.injEq] at hl
      obtain ⟨-, rfl⟩ := hl
      by_cases hj : j = 1
      · subst hj
        rw [show (thread 1 [(1, Ev.acq Lock.pan), (1, .start ⟨p, .read⟩), (1, .finish ⟨p, .read⟩), (1, .rel .pan), (1, .acq .ms), (1, .start ⟨p, .read⟩)]) =
          (([.acq .pan, .start ⟨p, .read⟩, .finish ⟨p, .read⟩] ++ [.rel .pan]) ++ [.acq .ms]) ++ [.start ⟨p, .read⟩] from rfl]
        rw [holds_snoc, holds_snoc, holds_snoc]
        simp
      · refine not_holds_of_notMem fun h => ?_
        simp [thread, Ne.symm hj] at h
    · simp
  · exact ⟨[.acq .pan, .start ⟨p, .read⟩, .finish ⟨p, .read⟩, .rel .pan, .acq .ms], [], rfl, by simp⟩
  · exact ⟨[.acq .pan], [], rfl, by simp⟩

/-- A dataset that is given twice to `read_im_gcps`, or another reader of images, is used by two threads at a time. -/
theorem C89_images_fails (x : Name) : ∃ w, Run (fun _ => imageTask x) w ∧ InUse (thread 0 w) ⟨x, .info⟩ ∧ InUse (thread 1 w) ⟨x, .info⟩ := by
  refine ⟨[(0, .start ⟨x, .info⟩), (1, .start ⟨x, .info⟩)], ⟨fun i => ⟨_, false, .seq .io .other, ?_⟩, no_locks (by simp)⟩, ⟨[], [], rfl, by simp⟩, ⟨[], [], rfl, by simp⟩⟩
  by_cases h0 : i = 0
  · subst h0
    exact ⟨[.finish ⟨x, .info⟩], rfl⟩
  · by_cases h1 : i = 1
    · subst h1
      exact ⟨[.finish ⟨x, .info⟩], rfl⟩
    · simp [thread, Ne.symm h0, Ne.symm h1]

/-- The hypothesis of `C89_ortho`: a moment at which a thread writes to the ortho while another is before the lock. -/
example : ∃ w, Run (remapThreads 1) w ∧ InUse (thread 1 w) ⟨nOut, .write⟩ ∧ ¬ InUse (thread 2 w) ⟨nOut, .write⟩ := by
  obtain ⟨w, hw, h1, h2⟩ := C89_info_fails 1
  exact ⟨w, hw, h1, (C89_ortho 1 w hw).2.1 1 2 _ _ (by decide) rfl rfl (by decide) (by decide) h1⟩

/-- The hypotheses of `C89_sharp_partial`: a moment at which a thread reads from the panchromatic image. -/
example : ∃ w, Run (sharpThreads nPan nMs) w ∧ InUse (thread 1 w) ⟨nPan, .read⟩ ∧ Exclusive nPan w := by
  let w : List (ℕ × Ev Lock) := [(1, .acq .pan), (1, .start ⟨nPan, .read⟩)]
  have hw : Run (sharpThreads nPan nMs) w := by
    refine ⟨fun i => ?_, locks_snoc (w := [_]) (locks_snoc (w := []) (no_locks (by simp)) fun _ l _ _ => not_holds_nil l) (by simp)⟩
    by_cases h1 : i = 1
    · subst h1
      exact ⟨_, true, .seqErr (.lock .io), ⟨[.finish ⟨nPan, .read⟩, .rel .pan], rfl⟩⟩
    · obtain ⟨t, ht⟩ := exists_CT (sharpThreads nPan nMs i)
      refine ⟨t, false, ht, ?_⟩
      have : thread i w = [] := by simp [w, thread, Ne.symm h1]
      rw [this]
      exact List.nil_prefix
  exact ⟨w, hw, ⟨[.acq .pan], [], rfl, by simp⟩, (C89_sharp_partial _ _ (by decide) (by decide) (by decide) w hw).1⟩

end Verif.Locks
