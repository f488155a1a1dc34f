import Verif.PanSharp.Tiles

/-!
# C85: pan-sharpened images that are not finished
-/

set_option autoImplicit false
set_option linter.unusedSectionVars false

namespace Verif.PanSharp
open Verif.Tiles Verif.Ortho Verif.Common

variable {K : Type} [Field K] [LinearOrder K] [IsStrictOrderedRing K] [FloorRing K]

/-! ## Model: workers that raise -/

/-- One step of some worker, as in `SStep`, or an exception in one, at any point of orthority/pan_sharp.py:491-515: before the write, while
data is written (then any part of the tile may have been written), between the two writes, or while the mask is written.  The `with`
statement of line 512 then releases the lock. -/
inductive FSStep (p : SharpIn K) (wins : List Win) : SPool K → SPool K → Prop
  | step {s s' : SPool K} : SStep p wins s s' → FSStep p wins s s'
  | die (s : SPool K) (i : ℕ) (e : PyErr) : i < wins.length → ¬ (s.phase i).finished →
      FSStep p wins s { s with phase := s.set i (.failed e), lock := if s.lock = some i then none else s.lock }
  | dieData (s : SPool K) (i : ℕ) (w : Win) (t : SharpTile K) (part : ℕ → ℕ → ℕ → Bool) (e : PyErr) :
      wins[i]? = some w → s.phase i = .locked t → s.lock = some i →
      FSStep p wins s { phase := s.set i (.failed e), lock := none, im := fun r c => { s.im r c with
        data := fun b => if part b r c then (writeArr w t s.im r c).data b else (s.im r c).data b } }
  | dieMask (s : SPool K) (i : ℕ) (w : Win) (t : SharpTile K) (part : ℕ → ℕ → Bool) (e : PyErr) :
      wins[i]? = some w → s.phase i = .dataDone t → s.lock = some i →
      FSStep p wins s { phase := s.set i (.failed e), lock := none, im := fun r c => { s.im r c with
        valid := if part r c then (writeMsk p w t s.im r c).valid else (s.im r c).valid } }

/-- Any number of steps. -/
inductive FSSteps (p : SharpIn K) (wins : List Win) : SPool K → SPool K → Prop
  | refl (s : SPool K) : FSSteps p wins s s
  | tail {s t u : SPool K} : FSSteps p wins s t → FSStep p wins t u → FSSteps p wins s u

/-- orthority/pan_sharp.py:639-667: the sharpening part of `process` with exceptions in any worker: result, and the image that it leaves.
`RuntimeError` once all workers have ended, when one raised. -/
inductive FSharpened (p : SharpIn K) (im : ℕ → ℕ → OutCell K) : Res Unit → (ℕ → ℕ → OutCell K) → Prop
  | ok (wins : List Win) (s : SPool K) : blockWindows p.out = .ok wins → FSSteps p wins (SPool.init im) s →
      (∀ i < wins.length, s.phase i = .done) → FSharpened p im (.ok ()) s.im
  | error (wins : List Win) (s : SPool K) (i : ℕ) (e : PyErr) : blockWindows p.out = .ok wins →
      FSSteps p wins (SPool.init im) s → (∀ i < wins.length, (s.phase i).finished) → s.phase i = .failed e →
      FSharpened p im (.error .runtimeError) s.im
  | block (e : PyErr) : blockWindows p.out = .error e → FSharpened p im (.error e) im

/-- The pan-sharpened image at some moment of orthority/pan_sharp.py:639-667, for example when the process is ended. -/
inductive SMoment (p : SharpIn K) (im : ℕ → ℕ → OutCell K) : (ℕ → ℕ → OutCell K) → Prop
  | before : SMoment p im im
  | during (wins : List Win) (s : SPool K) : blockWindows p.out = .ok wins → FSSteps p wins (SPool.init im) s → SMoment p im s.im

/-! ## Proof -/

variable {p : SharpIn K} {ws : List Win} {im₀ : ℕ → ℕ → OutCell K}

/-- Bands and mask of two cells are the same. -/
def OutCell.Same (a b : OutCell K) : Prop := (∀ k, a.data k = b.data k) ∧ a.valid = b.valid

theorem OutCell.Same.rfl {a : OutCell K} : a.Same a := ⟨fun _ => Eq.refl _, Eq.refl _⟩

theorem OutCell.Same.trans {a b c : OutCell K} (h : a.Same b) (h' : b.Same c) : a.Same c :=
  ⟨fun k => (h.1 k).trans (h'.1 k), h.2.trans h'.2⟩

/-- A cell of which data are partly written, and the mask only when all data are. -/
def SMixed (p : SharpIn K) (im₀ : ℕ → ℕ → OutCell K) (w : Win) (r c : ℕ) (x : OutCell K) : Prop :=
  x.Same (im₀ r c) ∨ ∃ t, computeSharp p w = .ok t ∧
    (∀ b, x.data b = (im₀ r c).data b ∨ x.data b = (writeArr w t im₀ r c).data b) ∧
    (x.valid = (im₀ r c).valid ∨ (x.valid = (writeMsk p w t im₀ r c).valid ∧ ∀ b, x.data b = (writeArr w t im₀ r c).data b))

/-- What is true of a job in each phase, at the pixels of its window. -/
def FSInv (p : SharpIn K) (im₀ : ℕ → ℕ → OutCell K) (s : SPool K) (i : ℕ) (w : Win) : Prop :=
  match s.phase i with
  | .pending => (∀ r c, w.Has r c → (s.im r c).Same (im₀ r c)) ∧ s.lock ≠ some i
  | .computed t => computeSharp p w = .ok t ∧ (∀ r c, w.Has r c → (s.im r c).Same (im₀ r c)) ∧ s.lock ≠ some i
  | .locked t => computeSharp p w = .ok t ∧ (∀ r c, w.Has r c → (s.im r c).Same (im₀ r c)) ∧ s.lock = some i
  | .dataDone t => computeSharp p w = .ok t ∧ (∀ r c, w.Has r c → (s.im r c).Same (writeArr w t im₀ r c)) ∧ s.lock = some i
  | .done => (∃ t, computeSharp p w = .ok t ∧ ∀ r c, w.Has r c → (s.im r c).Same (finalCell p w t im₀ r c)) ∧ s.lock ≠ some i
  | .failed _ => (∀ r c, w.Has r c → SMixed p im₀ w r c (s.im r c)) ∧ s.lock ≠ some i

theorem writeArr_same {im im' : ℕ → ℕ → OutCell K} {w : Win} {t : SharpTile K} {r c : ℕ} (h : (im r c).Same (im' r c)) :
    (writeArr w t im r c).Same (writeArr w t im' r c) := by
  unfold writeArr
  split
  · exact ⟨fun _ => rfl, h.2⟩
  · exact h

theorem writeMsk_same {im im' : ℕ → ℕ → OutCell K} {w : Win} {t : SharpTile K} {r c : ℕ} (h : (im r c).Same (im' r c)) :
    (writeMsk p w t im r c).Same (writeMsk p w t im' r c) := by
  unfold writeMsk
  split
  · exact ⟨h.1, rfl⟩
  · exact h

theorem writeArr_valid {im : ℕ → ℕ → OutCell K} {w : Win} {t : SharpTile K} {r c : ℕ} : (writeArr w t im r c).valid = (im r c).valid := by
  unfold writeArr
  split <;> rfl

theorem writeMsk_data {im : ℕ → ℕ → OutCell K} {w : Win} {t : SharpTile K} {r c b : ℕ} :
    (writeMsk p w t im r c).data b = (im r c).data b := by
  unfold writeMsk
  split <;> rfl

theorem writeMsk_valid {im im' : ℕ → ℕ → OutCell K} {w : Win} {t : SharpTile K} {r c : ℕ} (h : (im r c).valid = (im' r c).valid) :
    (writeMsk p w t im r c).valid = (writeMsk p w t im' r c).valid := by
  unfold writeMsk
  split
  · rfl
  · exact h

theorem SMixed.congr {w : Win} {r c : ℕ} {x y : OutCell K} (h : SMixed p im₀ w r c x) (hd : y.Same x) : SMixed p im₀ w r c y := by
  unfold SMixed OutCell.Same at h ⊢
  simpa only [hd.1, hd.2] using h

theorem FSInv.mixed {s : SPool K} {i : ℕ} {w : Win} (h : FSInv p im₀ s i w) {r c : ℕ} (hrc : w.Has r c) :
    SMixed p im₀ w r c (s.im r c) := by
  unfold FSInv at h
  cases hp : s.phase i <;> rw [hp] at h <;> simp only at h
  · exact Or.inl (h.1 r c hrc)
  · exact Or.inl (h.2.1 r c hrc)
  · exact Or.inl (h.2.1 r c hrc)
  · rename_i t
    exact Or.inr ⟨t, h.1, fun b => Or.inr ((h.2.1 r c hrc).1 b), Or.inl ((h.2.1 r c hrc).2.trans writeArr_valid)⟩
  · obtain ⟨⟨t, h1, h2⟩, -⟩ := h
    have hd : ∀ b, (s.im r c).data b = (writeArr w t im₀ r c).data b := fun b => ((h2 r c hrc).1 b).trans writeMsk_data
    exact Or.inr ⟨t, h1, fun b => Or.inr (hd b), Or.inr ⟨(h2 r c hrc).2.trans (writeMsk_valid writeArr_valid), hd⟩⟩
  · exact h.1 r c hrc

theorem FSInv.frame {s s' : SPool K} {i : ℕ} {w : Win} (h : FSInv p im₀ s i w) (hph : s'.phase i = s.phase i)
    (hd : ∀ r c, w.Has r c → (s'.im r c).Same (s.im r c)) (hl : s'.lock = some i ↔ s.lock = some i) : FSInv p im₀ s' i w := by
  unfold FSInv at h ⊢
  rw [hph]
  cases hp : s.phase i <;> rw [hp] at h <;> simp only [ne_eq, hl] at h ⊢
  · exact ⟨fun r c hrc => (hd r c hrc).trans (h.1 r c hrc), h.2⟩
  · exact ⟨h.1, fun r c hrc => (hd r c hrc).trans (h.2.1 r c hrc), h.2.2⟩
  · exact ⟨h.1, fun r c hrc => (hd r c hrc).trans (h.2.1 r c hrc), h.2.2⟩
  · exact ⟨h.1, fun r c hrc => (hd r c hrc).trans (h.2.1 r c hrc), h.2.2⟩
  · obtain ⟨⟨t, h1, h2⟩, h3⟩ := h
    exact ⟨⟨t, h1, fun r c hrc => (hd r c hrc).trans (h2 r c hrc)⟩, h3⟩
  · exact ⟨fun r c hrc => (h.1 r c hrc).congr (hd r c hrc), h.2⟩

theorem FSInv.step {H W : ℕ} (ht : Tiling H W ws) {s s' : SPool K} (hinv : ∀ i w, ws[i]? = some w → FSInv p im₀ s i w)
    (hst : FSStep p ws s s') : ∀ i w, ws[i]? = some w → FSInv p im₀ s' i w := by
  intro k v hk
  have hI := hinv k v hk
  have none_iff : ∀ {i : ℕ}, k ≠ i → s.lock = some i → (none = some k ↔ s.lock = some k) := by
    intro i e hl
    rw [hl]
    constructor
    · intro h; cases h
    · intro h; cases h; exact absurd rfl e
  cases hst with
  | step hst =>
    cases hst with
    | compute i w t hw hp hc =>
      by_cases e : k = i
      · subst e
        rw [hw] at hk; cases hk
        unfold FSInv at hI ⊢
        simp only [SPool.set, if_true, hp] at hI ⊢
        exact ⟨hc, hI.1, hI.2⟩
      · exact hI.frame (by simp [SPool.set, e]) (fun _ _ _ => .rfl) Iff.rfl
    | fail i w er hw hp hc =>
      by_cases e : k = i
      · subst e
        rw [hw] at hk; cases hk
        unfold FSInv at hI ⊢
        simp only [SPool.set, if_true, hp] at hI ⊢
        exact ⟨fun r c hrc => Or.inl (hI.1 r c hrc), hI.2⟩
      · exact hI.frame (by simp [SPool.set, e]) (fun _ _ _ => .rfl) Iff.rfl
    | acquire i t hp hl =>
      by_cases e : k = i
      · subst e
        unfold FSInv at hI ⊢
        simp only [SPool.set, if_true, hp] at hI ⊢
        exact ⟨hI.1, hI.2.1, trivial⟩
      · refine hI.frame (by simp [SPool.set, e]) (fun _ _ _ => .rfl) ?_
        simp only [hl, Option.some.injEq]
        constructor
        · intro h; exact absurd h.symm e
        · intro h; cases h
    | data i w t hw hp hl =>
      by_cases e : k = i
      · subst e
        rw [hw] at hk; cases hk
        unfold FSInv at hI ⊢
        simp only [SPool.set, if_true, hp] at hI ⊢
        exact ⟨hI.1, fun r c hrc => writeArr_same (hI.2.1 r c hrc), hI.2.2⟩
      · refine hI.frame (by simp [SPool.set, e]) (fun r c hrc => ?_) Iff.rfl
        simp only
        rw [writeArr_outside (fun h => e (tiling_unique ht hk hw hrc h))]
        exact .rfl
    | mask i w t hw hp hl =>
      by_cases e : k = i
      · subst e
        rw [hw] at hk; cases hk
        unfold FSInv at hI ⊢
        simp only [SPool.set, if_true, hp] at hI ⊢
        exact ⟨⟨t, hI.1, fun r c hrc => writeMsk_same (hI.2.1 r c hrc)⟩, by simp⟩
      · refine hI.frame (by simp [SPool.set, e]) (fun r c hrc => ?_) (none_iff e hl)
        simp only
        rw [writeMsk_outside (fun h => e (tiling_unique ht hk hw hrc h))]
        exact .rfl
  | die i er hi hp =>
    by_cases e : k = i
    · subst e
      have hm := fun r c hrc => hI.mixed (r := r) (c := c) hrc
      unfold FSInv
      simp only [SPool.set, if_true]
      refine ⟨hm, ?_⟩
      split
      · intro h; cases h
      · assumption
    · refine hI.frame (by simp [SPool.set, e]) (fun _ _ _ => .rfl) ?_
      simp only
      split
      · rename_i hl
        exact none_iff e hl
      · exact Iff.rfl
  | dieData i w t part er hw hp hl =>
    by_cases e : k = i
    · subst e
      rw [hw] at hk; cases hk
      unfold FSInv at hI ⊢
      simp only [SPool.set, if_true, hp] at hI ⊢
      refine ⟨fun r c hrc => Or.inr ⟨t, hI.1, fun b => ?_, Or.inl (hI.2.1 r c hrc).2⟩, by simp⟩
      simp only
      split
      · exact Or.inr ((writeArr_same (hI.2.1 r c hrc)).1 b)
      · exact Or.inl ((hI.2.1 r c hrc).1 b)
    · refine hI.frame (by simp [SPool.set, e]) (fun r c hrc => ⟨fun b => ?_, rfl⟩) (none_iff e hl)
      simp only
      split
      · rw [writeArr_outside (fun h => e (tiling_unique ht hk hw hrc h))]
      · rfl
  | dieMask i w t part er hw hp hl =>
    by_cases e : k = i
    · subst e
      rw [hw] at hk; cases hk
      unfold FSInv at hI ⊢
      simp only [SPool.set, if_true, hp] at hI ⊢
      refine ⟨fun r c hrc => Or.inr ⟨t, hI.1, fun b => Or.inr ((hI.2.1 r c hrc).1 b), ?_⟩, by simp⟩
      simp only
      split
      · exact Or.inr ⟨(writeMsk_valid ((hI.2.1 r c hrc).2.trans writeArr_valid)), (hI.2.1 r c hrc).1⟩
      · exact Or.inl ((hI.2.1 r c hrc).2.trans writeArr_valid)
    · refine hI.frame (by simp [SPool.set, e]) (fun r c hrc => ⟨fun b => rfl, ?_⟩) (none_iff e hl)
      simp only
      split
      · rw [writeMsk_outside (fun h => e (tiling_unique ht hk hw hrc h))]
      · rfl

theorem FSInv.steps {H W : ℕ} (ht : Tiling H W ws) {s : SPool K} (hst : FSSteps p ws (SPool.init im₀) s) :
    ∀ i w, ws[i]? = some w → FSInv p im₀ s i w := by
  induction hst with
  | refl => intro i w _; unfold FSInv; simp [SPool.init, OutCell.Same]
  | tail _ h2 ih => exact FSInv.step ht ih h2

/-- Without an exception the steps are those of `SStep`. -/
theorem fssteps_cases {s : SPool K} (h : FSSteps p ws (SPool.init im₀) s) :
    SSteps p ws (SPool.init im₀) s ∨ ∃ i e, i < ws.length ∧ s.phase i = .failed e := by
  have lt : ∀ {i : ℕ} {w : Win}, ws[i]? = some w → i < ws.length := fun h => (List.getElem?_eq_some_iff.1 h).1
  induction h with
  | refl => exact Or.inl (.refl _)
  | tail _ h2 ih =>
    rcases ih with ih | ⟨i, e, hi, he⟩
    · cases h2 with
      | step h => exact Or.inl (.tail ih h)
      | die i e hi _ => exact Or.inr ⟨i, e, hi, by simp [SPool.set]⟩
      | dieData i w t part e hw _ _ => exact Or.inr ⟨i, e, lt hw, by simp [SPool.set]⟩
      | dieMask i w t part e hw _ _ => exact Or.inr ⟨i, e, lt hw, by simp [SPool.set]⟩
    · have keep : ∀ (t : SPool K) (k : ℕ) (ph : SPhase K), t.phase i = .failed e → (∀ e', t.phase k ≠ .failed e') →
          t.set k ph i = .failed e := by
        intro t k ph h1 h2
        have : i ≠ k := by rintro rfl; exact h2 e h1
        simp [SPool.set, this, h1]
      refine Or.inr ⟨i, e, hi, ?_⟩
      cases h2 with
      | step h =>
        cases h with
        | compute k w t hw hp hc => exact keep _ k _ he (by simp [hp])
        | fail k w er hw hp hc => exact keep _ k _ he (by simp [hp])
        | acquire k t hp hl => exact keep _ k _ he (by simp [hp])
        | data k w t hw hp hl => exact keep _ k _ he (by simp [hp])
        | mask k w t hw hp hl => exact keep _ k _ he (by simp [hp])
      | die k er hk hp => exact keep _ k _ he (by intro e' h; rw [h] at hp; exact hp trivial)
      | dieData k w t part er hw hp hl => exact keep _ k _ he (by simp [hp])
      | dieMask k w t part er hw hp hl => exact keep _ k _ he (by simp [hp])

/-! ## C85 -/

/-- What a pixel of a finished image holds: the sharpened value where valid, else the nodata value of the type, or zero when there is an
internal mask. -/
def finishedValue (p : SharpIn K) (b r c : ℕ) : Val K :=
  if p.im.Valid (r, c) then sharpValue p b r c else if p.writeMask then zeroOf p.dt else nodataOf K p.dt

/-- C85: an exception in a worker is never lost.  When sharpening returns, no worker raised and all tiles are written. -/
theorem C85_sharp_no_lost_error (p : SharpIn K) (im im' : ℕ → ℕ → OutCell K) (h : FSharpened p im (.ok ()) im') :
    Sharpened p im (.ok im') := by
  cases h with
  | ok wins s hw hs hd =>
    rcases fssteps_cases hs with h | ⟨i, e, hi, he⟩
    · exact .ok wins s hw h hd
    · rw [hd i hi] at he; cases he

/-- C85: what sharpening leaves, returning or raising, is the image at some moment. -/
theorem C85_sharp_left (p : SharpIn K) (im im' : ℕ → ℕ → OutCell K) (r : Res Unit) (h : FSharpened p im r im') : SMoment p im im' := by
  cases h with
  | ok wins s hw hs _ => exact .during wins s hw hs
  | error wins s i e hw hs _ _ => exact .during wins s hw hs
  | block e _ => exact .before

/-- C85: at every moment and whichever workers raise, each pixel of each band is as it was in the new file, or as in the finished image, and
the mask of a pixel is as it was in the new file, or that of the finished image, and then so are all bands. -/
theorem C85_sharp_pixels (p : SharpIn K) (im im' : ℕ → ℕ → OutCell K) (h : SMoment p im im') :
    ∀ r < p.out.height, ∀ c < p.out.width,
      (∀ b, (im' r c).data b = (im r c).data b ∨ (im' r c).data b = finishedValue p b r c) ∧
      ((im' r c).valid = (im r c).valid ∨
        (p.writeMask = true ∧ (im' r c).valid = decide (p.im.Valid (r, c)) ∧ ∀ b, (im' r c).data b = finishedValue p b r c)) := by
  intro r hr c hc
  cases h with
  | before => exact ⟨fun _ => Or.inl rfl, Or.inl rfl⟩
  | during wins s hw hs =>
    have ht := C01_tiles_partition _ _ _ hw
    obtain ⟨i, w, hi, hh⟩ := tiling_exists ht hr hc
    have hh' : w.rowOff ≤ r ∧ r < w.rowOff + w.height ∧ w.colOff ≤ c ∧ c < w.colOff + w.width := hh
    have e1 : w.rowOff + (r - w.rowOff) = r := by omega
    have e2 : w.colOff + (c - w.colOff) = c := by omega
    rcases (FSInv.steps ht hs i w hi).mixed hh with h | ⟨t, h1, h2, h3⟩
    · exact ⟨fun b => Or.inl (h.1 b), Or.inl h.2⟩
    · have hmask : p.im.mask r c = decide (p.im.Valid (r, c)) := by
        rw [Bool.eq_iff_iff, mask_iff, decide_eq_true_eq]
      unfold computeSharp at h1
      split at h1
      · cases h1
      simp only [Except.ok.injEq] at h1
      have hval : ∀ b, t.val b (r - w.rowOff) (c - w.colOff) = finishedValue p b r c := by
        intro b
        rw [← h1]
        simp only [e1, e2, fillValue_eq, hmask, decide_eq_true_eq]
        rfl
      have hmsk : t.mask (r - w.rowOff) (c - w.colOff) = decide (p.im.Valid (r, c)) := by
        rw [← h1]
        simp only [e1, e2, hmask]
      have hdata : ∀ b, (writeArr w t im r c).data b = finishedValue p b r c := by
        intro b
        simp only [writeArr, if_pos hh', hval]
      refine ⟨fun b => (h2 b).imp id fun h => h.trans (hdata b), ?_⟩
      rcases h3 with h3 | ⟨h3, h4⟩
      · exact Or.inl h3
      · by_cases hm : p.writeMask = true
        · right
          refine ⟨hm, ?_, fun b => (h4 b).trans (hdata b)⟩
          rw [h3]
          simp only [writeMsk, hm, true_and, if_pos hh', hmsk]
        · left
          rw [h3]
          simp [writeMsk, hm]

/-- C85: not vacuous.  A worker that raises after data is written and before the mask is leaves a pixel with its value and not valid. -/
example : ∃ (p : SharpIn ℚ) (im im' : ℕ → ℕ → OutCell ℚ), p.writeMask = true ∧ FSharpened p im (.error .runtimeError) im' ∧
    (im' 0 1).data 0 = finishedValue p 0 0 1 ∧ (im 0 1).data 0 ≠ finishedValue p 0 0 1 ∧ (im' 0 1).valid = false ∧ p.im.Valid (0, 1) := by
  let p : SharpIn ℚ := { demoSharp with writeMask := true, out := ⟨3, 2, false, none, (2, 3)⟩ }
  let im : ℕ → ℕ → OutCell ℚ := fun _ _ => ⟨fun _ => .nan, false, 0⟩
  have hb : blockWindows p.out = .ok [⟨0, 0, 3, 2⟩] := by decide +kernel
  obtain ⟨t, ht⟩ : ∃ t, computeSharp p ⟨0, 0, 3, 2⟩ = .ok t := ⟨_, rfl⟩
  have hval : t.val 0 0 1 = finishedValue p 0 0 1 := by
    have h1 := ht
    unfold computeSharp at h1
    simp only [p, demoSharp, Except.ok.injEq] at h1
    rw [← h1]
    decide +kernel
  refine ⟨p, im, _, rfl, .error _ _ 0 .osError hb (.tail (.tail (.tail (.tail (.refl _)
    (.step (.compute _ 0 ⟨0, 0, 3, 2⟩ t rfl rfl ht))) (.step (.acquire _ 0 t (by simp [SPool.set]) rfl)))
    (.step (.data _ 0 ⟨0, 0, 3, 2⟩ t rfl (by simp [SPool.set]) rfl)))
    (.die _ 0 .osError (by simp) (by simp [SPool.set, SPhase.finished]))) ?_ (by simp [SPool.set]), hval, ?_, rfl, by decide +kernel⟩
  · intro i hi
    have : i = 0 := by simpa using hi
    subst this
    simp [SPool.set, SPhase.finished]
  · decide +kernel

end Verif.PanSharp
