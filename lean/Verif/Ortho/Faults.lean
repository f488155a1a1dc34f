import Verif.Ortho.Props

/-!
# C85: ortho images that are not finished
-/

set_option autoImplicit false
set_option linter.unusedSectionVars false

namespace Verif.Ortho
open Verif.Tiles

variable {K : Type} [Field K] [DecidableEq K] {Src : Type}

/-! ## Model: workers that raise -/

/-- One step of some worker, as in `Step`, or an exception in one, at any point of orthority/ortho.py:371-399: before the write, while
data is written (then any part of the tile may have been written), between the two writes, or while the mask is written.  The `with`
statement of line 395 then releases the lock. -/
inductive FStep (p : RemapIn K Src) (w₀ : Win) (wins : List Win) (indexes : List ℕ) : Pool K → Pool K → Prop
  | step {s s' : Pool K} : Step p w₀ wins indexes s s' → FStep p w₀ wins indexes s s'
  | die (s : Pool K) (i : ℕ) (e : PyErr) : i < wins.length → ¬ (s.phase i).finished →
      FStep p w₀ wins indexes s { s with phase := s.set i (.failed e), lock := if s.lock = some i then none else s.lock }
  | dieData (s : Pool K) (i : ℕ) (w : Win) (t : Tile K) (part : ℕ → ℕ → ℕ → Bool) (e : PyErr) :
      wins[i]? = some w → s.phase i = .locked t → s.lock = some i →
      FStep p w₀ wins indexes s { phase := s.set i (.failed e), lock := none, im := { s.im with
        data := fun b r c => if part b r c then (writeData s.im indexes w t).data b r c else s.im.data b r c } }
  | dieMask (s : Pool K) (i : ℕ) (w : Win) (t : Tile K) (part : ℕ → ℕ → Bool) (e : PyErr) :
      wins[i]? = some w → s.phase i = .dataDone t → s.lock = some i →
      FStep p w₀ wins indexes s { phase := s.set i (.failed e), lock := none, im := { s.im with
        valid := fun r c => if part r c then (writeMask p s.im indexes w t).valid r c else s.im.valid r c } }

/-- Any number of steps. -/
inductive FSteps (p : RemapIn K Src) (w₀ : Win) (wins : List Win) (indexes : List ℕ) : Pool K → Pool K → Prop
  | refl (s : Pool K) : FSteps p w₀ wins indexes s s
  | tail {s t u : Pool K} : FSteps p w₀ wins indexes s t → FStep p w₀ wins indexes t u → FSteps p w₀ wins indexes s u

/-- The loop over batches, orthority/ortho.py:443-482, and the image when it ends.  An exception of `Camera.read` (line 447) comes before
the workers of the batch are started; one of a worker is raised as RuntimeError once all workers of the batch have ended. -/
inductive FBatches (p : RemapIn K Src) (w₀ : Win) (wins : List Win) : List (List ℕ) → OrthoIm K → Res Unit → OrthoIm K → Prop
  | nil (im : OrthoIm K) : FBatches p w₀ wins [] im (.ok ()) im
  | cons {ix : List ℕ} {l : List (List ℕ)} {im im' : OrthoIm K} {r : Res Unit} (s : Pool K) :
      FSteps p w₀ wins ix (Pool.init im) s → (∀ i < wins.length, s.phase i = .done) → FBatches p w₀ wins l s.im r im' →
      FBatches p w₀ wins (ix :: l) im r im'
  | read {ix : List ℕ} {l : List (List ℕ)} {im : OrthoIm K} (e : PyErr) : FBatches p w₀ wins (ix :: l) im (.error e) im
  | stop {ix : List ℕ} {l : List (List ℕ)} {im : OrthoIm K} (s : Pool K) (i : ℕ) (e : PyErr) :
      FSteps p w₀ wins ix (Pool.init im) s → (∀ i < wins.length, (s.phase i).finished) → s.phase i = .failed e →
      FBatches p w₀ wins (ix :: l) im (.error .runtimeError) s.im

/-- orthority/ortho.py:401-482 `Ortho._remap` with exceptions in any worker or read: result, and the image that it leaves. -/
inductive FRemap (p : RemapIn K Src) (perBand : Bool) (im : OrthoIm K) : Res Unit → OrthoIm K → Prop
  | run {w₀ : Win} {ws : List Win} {r : Res Unit} {im' : OrthoIm K} : blockWindows p.out = .ok (w₀ :: ws) →
      FBatches p w₀ (w₀ :: ws) (indexList perBand p.count) im r im' → FRemap p perBand im r im'
  | empty : blockWindows p.out = .ok [] → FRemap p perBand im (.error .stopIteration) im
  | block {e : PyErr} : blockWindows p.out = .error e → FRemap p perBand im (.error e) im

/-- Images at some moment of the loop over batches: between two steps of some workers, whether or not other workers raised. -/
inductive Moments (p : RemapIn K Src) (w₀ : Win) (wins : List Win) : List (List ℕ) → OrthoIm K → OrthoIm K → Prop
  | start (l : List (List ℕ)) (im : OrthoIm K) : Moments p w₀ wins l im im
  | here {ix : List ℕ} {l : List (List ℕ)} {im : OrthoIm K} (s : Pool K) : FSteps p w₀ wins ix (Pool.init im) s →
      Moments p w₀ wins (ix :: l) im s.im
  | later {ix : List ℕ} {l : List (List ℕ)} {im im' : OrthoIm K} (s : Pool K) : FSteps p w₀ wins ix (Pool.init im) s →
      (∀ i < wins.length, s.phase i = .done) → Moments p w₀ wins l s.im im' → Moments p w₀ wins (ix :: l) im im'

/-- The ortho image at some moment of `Ortho._remap`, orthority/ortho.py:401-482, for example when the process is ended. -/
inductive Moment (p : RemapIn K Src) (perBand : Bool) (im : OrthoIm K) : OrthoIm K → Prop
  | before : Moment p perBand im im
  | during {w₀ : Win} {ws : List Win} {im' : OrthoIm K} : blockWindows p.out = .ok (w₀ :: ws) →
      Moments p w₀ (w₀ :: ws) (indexList perBand p.count) im im' → Moment p perBand im im'

/-! ## Proof -/

variable {p : RemapIn K Src} {w₀ : Win} {ws : List Win} {ix : List ℕ} {im₀ : OrthoIm K}

/-- A pixel of which data are partly written, and the mask only when all data are. -/
def Mixed (p : RemapIn K Src) (w₀ : Win) (ix : List ℕ) (im₀ im : OrthoIm K) (w : Win) (r c : ℕ) : Prop :=
  ((∀ b, im.data b r c = im₀.data b r c) ∧ im.valid r c = im₀.valid r c) ∨
  ∃ t, computeTile p w₀ ix w = .ok t ∧
    (∀ b, im.data b r c = im₀.data b r c ∨ im.data b r c = (writeData im₀ ix w t).data b r c) ∧
    (im.valid r c = im₀.valid r c ∨
      (im.valid r c = (writeMask p im₀ ix w t).valid r c ∧ ∀ b, im.data b r c = (writeData im₀ ix w t).data b r c))

/-- What is true of a job in each phase, at the pixels of its window. -/
def FInv (p : RemapIn K Src) (w₀ : Win) (ix : List ℕ) (im₀ : OrthoIm K) (s : Pool K) (i : ℕ) (w : Win) : Prop :=
  match s.phase i with
  | .pending => (∀ r c, w.Has r c → (∀ b, s.im.data b r c = im₀.data b r c) ∧ s.im.valid r c = im₀.valid r c) ∧ s.lock ≠ some i
  | .computed t => computeTile p w₀ ix w = .ok t ∧
      (∀ r c, w.Has r c → (∀ b, s.im.data b r c = im₀.data b r c) ∧ s.im.valid r c = im₀.valid r c) ∧ s.lock ≠ some i
  | .locked t => computeTile p w₀ ix w = .ok t ∧
      (∀ r c, w.Has r c → (∀ b, s.im.data b r c = im₀.data b r c) ∧ s.im.valid r c = im₀.valid r c) ∧ s.lock = some i
  | .dataDone t => computeTile p w₀ ix w = .ok t ∧
      (∀ r c, w.Has r c → (∀ b, s.im.data b r c = (writeData im₀ ix w t).data b r c) ∧ s.im.valid r c = im₀.valid r c) ∧ s.lock = some i
  | .done => (∃ t, computeTile p w₀ ix w = .ok t ∧ (∀ r c, w.Has r c → (∀ b, s.im.data b r c = (writeData im₀ ix w t).data b r c) ∧
      s.im.valid r c = (writeMask p im₀ ix w t).valid r c)) ∧ s.lock ≠ some i
  | .failed _ => (∀ r c, w.Has r c → Mixed p w₀ ix im₀ s.im w r c) ∧ s.lock ≠ some i

theorem Mixed.congr {im im' : OrthoIm K} {w : Win} {r c : ℕ} (h : Mixed p w₀ ix im₀ im w r c)
    (hd : (∀ b, im'.data b r c = im.data b r c) ∧ im'.valid r c = im.valid r c) : Mixed p w₀ ix im₀ im' w r c := by
  unfold Mixed at h ⊢
  simpa only [hd.1, hd.2] using h

theorem FInv.mixed {s : Pool K} {i : ℕ} {w : Win} (h : FInv p w₀ ix im₀ s i w) {r c : ℕ} (hrc : w.Has r c) :
    Mixed p w₀ ix im₀ s.im w r c := by
  unfold FInv at h
  cases hp : s.phase i <;> rw [hp] at h <;> simp only at h
  · exact Or.inl (h.1 r c hrc)
  · exact Or.inl (h.2.1 r c hrc)
  · exact Or.inl (h.2.1 r c hrc)
  · rename_i t
    exact Or.inr ⟨t, h.1, fun b => Or.inr ((h.2.1 r c hrc).1 b), Or.inl (h.2.1 r c hrc).2⟩
  · obtain ⟨⟨t, h1, h2⟩, -⟩ := h
    exact Or.inr ⟨t, h1, fun b => Or.inr ((h2 r c hrc).1 b), Or.inr ⟨(h2 r c hrc).2, (h2 r c hrc).1⟩⟩
  · exact h.1 r c hrc

theorem FInv.frame {s s' : Pool K} {i : ℕ} {w : Win} (h : FInv p w₀ ix im₀ s i w) (hph : s'.phase i = s.phase i)
    (hd : ∀ r c, w.Has r c → (∀ b, s'.im.data b r c = s.im.data b r c) ∧ s'.im.valid r c = s.im.valid r c)
    (hl : s'.lock = some i ↔ s.lock = some i) : FInv p w₀ ix im₀ s' i w := by
  have tr : ∀ r c, w.Has r c → ∀ (f : ℕ → Pix K) (v : Bool), (∀ b, s.im.data b r c = f b) ∧ s.im.valid r c = v →
      (∀ b, s'.im.data b r c = f b) ∧ s'.im.valid r c = v := fun r c hrc f v hv =>
    ⟨fun b => ((hd r c hrc).1 b).trans (hv.1 b), (hd r c hrc).2.trans hv.2⟩
  unfold FInv at h ⊢
  rw [hph]
  cases hp : s.phase i <;> rw [hp] at h <;> simp only [ne_eq, hl] at h ⊢
  · exact ⟨fun r c hrc => tr r c hrc _ _ (h.1 r c hrc), h.2⟩
  · exact ⟨h.1, fun r c hrc => tr r c hrc _ _ (h.2.1 r c hrc), h.2.2⟩
  · exact ⟨h.1, fun r c hrc => tr r c hrc _ _ (h.2.1 r c hrc), h.2.2⟩
  · exact ⟨h.1, fun r c hrc => tr r c hrc _ _ (h.2.1 r c hrc), h.2.2⟩
  · obtain ⟨⟨t, h1, h2⟩, h3⟩ := h
    exact ⟨⟨t, h1, fun r c hrc => tr r c hrc _ _ (h2 r c hrc)⟩, h3⟩
  · exact ⟨fun r c hrc => (h.1 r c hrc).congr (hd r c hrc), h.2⟩

theorem FInv.step {H W : ℕ} (ht : Tiling H W ws) {s s' : Pool K} (hinv : ∀ i w, ws[i]? = some w → FInv p w₀ ix im₀ s i w)
    (hst : FStep p w₀ ws ix s s') : ∀ i w, ws[i]? = some w → FInv p w₀ ix im₀ s' i w := by
  intro k v hk
  have hI := hinv k v hk
  have none_iff : ∀ {i : ℕ}, k ≠ i → s.lock = some i → (none = some k ↔ s.lock = some k) := by
    intro i e hl
    rw [hl]
    constructor
    · intro h; cases h
    · intro h; cases h; exact absurd rfl e
  cases hst with
  | step hst =>
    cases hst with
    | compute i w t hw hp hc =>
      by_cases e : k = i
      · subst e
        rw [hw] at hk; cases hk
        unfold FInv at hI ⊢
        simp only [Pool.set, if_true, hp] at hI ⊢
        exact ⟨hc, hI.1, hI.2⟩
      · exact hI.frame (by simp [Pool.set, e]) (fun _ _ _ => ⟨fun _ => rfl, rfl⟩) Iff.rfl
    | fail i w er hw hp hc =>
      by_cases e : k = i
      · subst e
        rw [hw] at hk; cases hk
        unfold FInv at hI ⊢
        simp only [Pool.set, if_true, hp] at hI ⊢
        exact ⟨fun r c hrc => Or.inl (hI.1 r c hrc), hI.2⟩
      · exact hI.frame (by simp [Pool.set, e]) (fun _ _ _ => ⟨fun _ => rfl, rfl⟩) Iff.rfl
    | acquire i t hp hl =>
      by_cases e : k = i
      · subst e
        unfold FInv at hI ⊢
        simp only [Pool.set, if_true, hp] at hI ⊢
        exact ⟨hI.1, hI.2.1, trivial⟩
      · refine hI.frame (by simp [Pool.set, e]) (fun _ _ _ => ⟨fun _ => rfl, rfl⟩) ?_
        simp only [hl, Option.some.injEq]
        constructor
        · intro h; exact absurd h.symm e
        · intro h; cases h
    | data i w t hw hp hl =>
      by_cases e : k = i
      · subst e
        rw [hw] at hk; cases hk
        unfold FInv at hI ⊢
        simp only [Pool.set, if_true, hp] at hI ⊢
        exact ⟨hI.1, fun r c hrc => ⟨fun b => writeData_congr ((hI.2.1 r c hrc).1 b), (hI.2.1 r c hrc).2⟩, hI.2.2⟩
      · refine hI.frame (by simp [Pool.set, e]) (fun r c hrc => ⟨fun b => ?_, rfl⟩) Iff.rfl
        exact writeData_outside (fun h => e (tiling_unique ht hk hw hrc h)) b
    | mask i w t hw hp hl =>
      by_cases e : k = i
      · subst e
        rw [hw] at hk; cases hk
        unfold FInv at hI ⊢
        simp only [Pool.set, if_true, hp] at hI ⊢
        refine ⟨⟨t, hI.1, fun r c hrc => ⟨fun b => ?_, ?_⟩⟩, by simp⟩
        · rw [writeMask_data]; exact (hI.2.1 r c hrc).1 b
        · exact writeMask_congr (hI.2.1 r c hrc).2
      · refine hI.frame (by simp [Pool.set, e]) (fun r c hrc => ⟨fun b => writeMask_data, ?_⟩) (none_iff e hl)
        exact writeMask_outside (fun h => e (tiling_unique ht hk hw hrc h))
  | die i er hi hp =>
    by_cases e : k = i
    · subst e
      have hm := fun r c hrc => hI.mixed (r := r) (c := c) hrc
      unfold FInv
      simp only [Pool.set, if_true]
      refine ⟨hm, ?_⟩
      split
      · intro h; cases h
      · assumption
    · refine hI.frame (by simp [Pool.set, e]) (fun _ _ _ => ⟨fun _ => rfl, rfl⟩) ?_
      simp only
      split
      · rename_i hl
        exact none_iff e hl
      · exact Iff.rfl
  | dieData i w t part er hw hp hl =>
    by_cases e : k = i
    · subst e
      rw [hw] at hk; cases hk
      unfold FInv at hI ⊢
      simp only [Pool.set, if_true, hp] at hI ⊢
      refine ⟨fun r c hrc => Or.inr ⟨t, hI.1, fun b => ?_, Or.inl (hI.2.1 r c hrc).2⟩, by simp⟩
      simp only
      split
      · exact Or.inr (writeData_congr ((hI.2.1 r c hrc).1 b))
      · exact Or.inl ((hI.2.1 r c hrc).1 b)
    · refine hI.frame (by simp [Pool.set, e]) (fun r c hrc => ⟨fun b => ?_, rfl⟩) (none_iff e hl)
      simp only
      split
      · exact writeData_outside (fun h => e (tiling_unique ht hk hw hrc h)) b
      · rfl
  | dieMask i w t part er hw hp hl =>
    by_cases e : k = i
    · subst e
      rw [hw] at hk; cases hk
      unfold FInv at hI ⊢
      simp only [Pool.set, if_true, hp] at hI ⊢
      refine ⟨fun r c hrc => Or.inr ⟨t, hI.1, fun b => Or.inr ((hI.2.1 r c hrc).1 b), ?_⟩, by simp⟩
      simp only
      split
      · exact Or.inr ⟨writeMask_congr (hI.2.1 r c hrc).2, (hI.2.1 r c hrc).1⟩
      · exact Or.inl (hI.2.1 r c hrc).2
    · refine hI.frame (by simp [Pool.set, e]) (fun r c hrc => ⟨fun b => rfl, ?_⟩) (none_iff e hl)
      simp only
      split
      · exact writeMask_outside (fun h => e (tiling_unique ht hk hw hrc h))
      · rfl

theorem FInv.steps {H W : ℕ} (ht : Tiling H W ws) {s : Pool K} (hst : FSteps p w₀ ws ix (Pool.init im₀) s) :
    ∀ i w, ws[i]? = some w → FInv p w₀ ix im₀ s i w := by
  induction hst with
  | refl => intro i w _; unfold FInv; simp [Pool.init]
  | tail _ h2 ih => exact FInv.step ht ih h2

/-- Without an exception the steps are those of `Step`. -/
theorem fsteps_cases {s : Pool K} (h : FSteps p w₀ ws ix (Pool.init im₀) s) :
    Steps p w₀ ws ix (Pool.init im₀) s ∨ ∃ i e, i < ws.length ∧ s.phase i = .failed e := by
  have lt : ∀ {i : ℕ} {w : Win}, ws[i]? = some w → i < ws.length := fun h => (List.getElem?_eq_some_iff.1 h).1
  induction h with
  | refl => exact Or.inl (.refl _)
  | tail _ h2 ih =>
    rcases ih with ih | ⟨i, e, hi, he⟩
    · cases h2 with
      | step h => exact Or.inl (.tail ih h)
      | die i e hi _ => exact Or.inr ⟨i, e, hi, by simp [Pool.set]⟩
      | dieData i w t part e hw _ _ => exact Or.inr ⟨i, e, lt hw, by simp [Pool.set]⟩
      | dieMask i w t part e hw _ _ => exact Or.inr ⟨i, e, lt hw, by simp [Pool.set]⟩
    · have keep : ∀ (t : Pool K) (k : ℕ) (ph : Phase K), t.phase i = .failed e → (∀ e', t.phase k ≠ .failed e') →
          t.set k ph i = .failed e := by
        intro t k ph h1 h2
        have : i ≠ k := by rintro rfl; exact h2 e h1
        simp [Pool.set, this, h1]
      refine Or.inr ⟨i, e, hi, ?_⟩
      cases h2 with
      | step h =>
        cases h with
        | compute k w t hw hp hc => exact keep _ k _ he (by simp [hp])
        | fail k w er hw hp hc => exact keep _ k _ he (by simp [hp])
        | acquire k t hp hl => exact keep _ k _ he (by simp [hp])
        | data k w t hw hp hl => exact keep _ k _ he (by simp [hp])
        | mask k w t hw hp hl => exact keep _ k _ he (by simp [hp])
      | die k er hk hp => exact keep _ k _ he (by intro e' h; rw [h] at hp; exact hp trivial)
      | dieData k w t part er hw hp hl => exact keep _ k _ he (by simp [hp])
      | dieMask k w t part er hw hp hl => exact keep _ k _ he (by simp [hp])

theorem fsteps_done {s : Pool K} (h : FSteps p w₀ ws ix (Pool.init im₀) s) (hd : ∀ i < ws.length, s.phase i = .done) :
    Batch p w₀ ws ix im₀ (.ok s.im) := by
  rcases fsteps_cases h with h | ⟨i, e, hi, he⟩
  · exact .ok s h hd
  · rw [hd i hi] at he; cases he

theorem fbatches_moments {l : List (List ℕ)} {im im' : OrthoIm K} {r : Res Unit} (h : FBatches p w₀ ws l im r im') :
    Moments p w₀ ws l im im' := by
  induction h with
  | nil im => exact .start _ _
  | cons s h1 h2 _ ih => exact .later s h1 h2 ih
  | read e => exact .start _ _
  | stop s i e h1 _ _ => exact .here s h1

theorem fbatches_ok {l : List (List ℕ)} {im im' : OrthoIm K} {r : Res Unit} (h : FBatches p w₀ ws l im r im') (hr : r = .ok ()) :
    Batches p w₀ ws l im (.ok im') := by
  induction h with
  | nil im => exact .nil _
  | cons s h1 h2 _ ih => exact .cons (fsteps_done h1 h2) (ih hr)
  | read e => cases hr
  | stop s i e h1 _ _ => cases hr

theorem writeData_not_mem {im : OrthoIm K} {w : Win} {t : Tile K} {b r c : ℕ} (hb : b ∉ ix) :
    (writeData im ix w t).data b r c = im.data b r c := by
  simp only [writeData]
  split
  · rw [List.idxOf?_eq_none_iff.2 hb]
  · rfl

/-- Data at a moment: as before or computed in the batch of the band. -/
theorem moments_data {H W : ℕ} (ht : Tiling H W ws) {l : List (List ℕ)} {im im' : OrthoIm K} (h : Moments p w₀ ws l im im')
    {i : ℕ} {w : Win} (hw : ws[i]? = some w) {r c : ℕ} (hrc : w.Has r c) (b : ℕ) :
    im'.data b r c = im.data b r c ∨ ∃ ix ∈ l, ∃ k t, ix.idxOf? b = some k ∧ computeTile p w₀ ix w = .ok t ∧
      im'.data b r c = t.val k (r - w.rowOff) (c - w.colOff) := by
  have wr : ∀ (ix : List ℕ) (im : OrthoIm K) (t : Tile K), (writeData im ix w t).data b r c = im.data b r c ∨
      ∃ k, ix.idxOf? b = some k ∧ (writeData im ix w t).data b r c = t.val k (r - w.rowOff) (c - w.colOff) := by
    intro ix im t
    cases hk : ix.idxOf? b with
    | none => exact Or.inl (writeData_not_mem (List.idxOf?_eq_none_iff.1 hk))
    | some k =>
      refine Or.inr ⟨k, rfl, ?_⟩
      simp only [writeData, hk]
      exact if_pos hrc
  have one : ∀ (ix : List ℕ) (im : OrthoIm K) (s : Pool K), FSteps p w₀ ws ix (Pool.init im) s →
      s.im.data b r c = im.data b r c ∨ ∃ k t, ix.idxOf? b = some k ∧ computeTile p w₀ ix w = .ok t ∧
        s.im.data b r c = t.val k (r - w.rowOff) (c - w.colOff) := by
    intro ix im s hs
    rcases (FInv.steps ht hs i w hw).mixed hrc with h | ⟨t, h1, h2, -⟩
    · exact Or.inl (h.1 b)
    · rcases h2 b with h2 | h2
      · exact Or.inl h2
      · rcases wr ix im t with h3 | ⟨k, h3, h4⟩
        · exact Or.inl (h2.trans h3)
        · exact Or.inr ⟨k, t, h3, h1, h2.trans h4⟩
  induction h with
  | start l im => exact Or.inl rfl
  | here s h1 =>
    rcases one _ _ s h1 with h | ⟨k, t, h2⟩
    · exact Or.inl h
    · exact Or.inr ⟨_, List.mem_cons_self .., k, t, h2⟩
  | later s h1 _ _ ih =>
    rcases ih with h | ⟨ix', hm, h⟩
    · rw [h]
      rcases one _ _ s h1 with h | ⟨k, t, h2⟩
      · exact Or.inl h
      · exact Or.inr ⟨_, List.mem_cons_self .., k, t, h2⟩
    · exact Or.inr ⟨ix', List.mem_cons_of_mem _ hm, h⟩

/-! ## C85 -/

/-- C85: an exception in a worker or read is never lost.  When `_remap` returns, no worker raised and all tiles are written. -/
theorem C85_no_lost_error (p : RemapIn K Src) (perBand : Bool) (im im' : OrthoIm K) (h : FRemap p perBand im (.ok ()) im') :
    Remap p perBand im (.ok im') := by
  cases h with
  | run h1 h2 => exact .run h1 (fbatches_ok h2 rfl)

/-- C85: what `_remap` leaves, returning or raising, is the image at some moment. -/
theorem C85_left (p : RemapIn K Src) (perBand : Bool) (im im' : OrthoIm K) (r : Res Unit) (h : FRemap p perBand im r im') :
    Moment p perBand im im' := by
  cases h with
  | run h1 h2 => exact .during h1 (fbatches_moments h2)
  | empty _ => exact .before
  | block _ => exact .before

/-- C85: at every moment, and whichever workers raise, each pixel of each band is as it was in the new file, or as it is in the result of a
run that completes. -/
theorem C85_pixels (p : RemapIn K Src) (perBand : Bool) (im im' imF : OrthoIm K) (h : Moment p perBand im im')
    (hF : Remap p perBand im (.ok imF)) : ∀ b r c, 1 ≤ b → b ≤ p.count → r < p.out.height → c < p.out.width →
      im'.data b r c = im.data b r c ∨ im'.data b r c = imF.data b r c := by
  intro b r c hb1 hb2 hr hc
  cases h with
  | before => exact Or.inl rfl
  | @during w₀ ws _ h1 h2 =>
    obtain ⟨w₀', ws', hw', hv⟩ := C02_tile_values p perBand im imF hF
    rw [h1] at hw'
    cases hw'
    have ht := C01_tiles_partition p.out none _ h1
    obtain ⟨i, w, hw, hrc⟩ := tiling_exists ht hr hc
    obtain ⟨t, ht1, ht2⟩ := hv b hb1 hb2 w (List.mem_of_getElem? hw)
    rcases moments_data ht h2 hw hrc b with h | ⟨ix, hix, k, t', hk, ht', h⟩
    · exact Or.inl h
    · right
      rw [h, ht2 r c hrc]
      cases perBand with
      | true =>
        simp only [indexList, if_true, List.mem_map, List.mem_range'] at hix ht1
        obtain ⟨a, -, rfl⟩ := hix
        obtain ⟨hlt, hg, -⟩ := List.idxOf?_eq_some_iff.1 hk
        have hk0 : k = 0 := by simpa using hlt
        subst hk0
        have hab : a = b := by simpa using hg
        subst hab
        rw [ht1] at ht'
        cases ht'
        rfl
      | false =>
        simp only [indexList, Bool.false_eq_true, if_false, List.mem_singleton] at hix ht1
        subst hix
        obtain ⟨hlt, hg, -⟩ := List.idxOf?_eq_some_iff.1 hk
        simp only [List.getElem_range'] at hg
        have hkb : k = b - 1 := by omega
        subst hkb
        rw [ht1] at ht'
        cases ht'
        rfl

/-- C85: at every moment, without dilation, each pixel of each band is as it was in the new file, or the source image sampled at the
projection of the pixel. -/
theorem C85_values (p : RemapIn K Src) (perBand : Bool) (im im' : OrthoIm K) (hmode : p.mode.dilates p.nodata = false)
    (h : Moment p perBand im im') : ∀ b r c, r < p.out.height → c < p.out.width →
      im'.data b r c = im.data b r c ∨ im'.data b r c = orthoValue p b r c := by
  intro b r c hr hc
  cases h with
  | before => exact Or.inl rfl
  | @during w₀ ws _ h1 h2 =>
    have ht := C01_tiles_partition p.out none _ h1
    obtain ⟨i, w, hw, hrc⟩ := tiling_exists ht hr hc
    rcases moments_data ht h2 hw hrc b with h | ⟨ix, hix, k, t, hk, ht', h⟩
    · exact Or.inl h
    · right
      obtain ⟨hlt, hg, -⟩ := List.idxOf?_eq_some_iff.1 hk
      have := computeTile_val hmode ht' k (r - w.rowOff) (c - w.colOff) b (by rw [List.getElem?_eq_getElem hlt, hg])
      rw [h, this]
      unfold Win.Has at hrc
      congr 1 <;> omega

/-- C85: with all bands at once, at every moment and whichever workers raise, the mask of a pixel is as it was in the new file, or it is
that of the finished image and then so are all bands: no pixel is marked valid before its data are written. -/
theorem C85_mask (p : RemapIn K Src) (im im' : OrthoIm K) (hmode : p.mode.dilates p.nodata = false)
    (h : Moment p false im im') : ∀ r c, r < p.out.height → c < p.out.width →
      im'.valid r c = im.valid r c ∨
        (p.writeMask = true ∧ (im'.valid r c = true ↔ orthoValid p r c) ∧ ∀ b, 1 ≤ b → b ≤ p.count → im'.data b r c = orthoValue p b r c) := by
  intro r c hr hc
  have key : ∀ (w₀ : Win) (ws : List Win) (s : Pool K), blockWindows p.out = .ok (w₀ :: ws) →
      FSteps p w₀ (w₀ :: ws) (List.range' 1 p.count) (Pool.init im) s → s.im.valid r c = im.valid r c ∨
        (p.writeMask = true ∧ (s.im.valid r c = true ↔ orthoValid p r c) ∧ ∀ b, 1 ≤ b → b ≤ p.count → s.im.data b r c = orthoValue p b r c) := by
    intro w₀ ws s hw0 hs
    have ht := C01_tiles_partition p.out none _ hw0
    obtain ⟨i, w, hw, hrc⟩ := tiling_exists ht hr hc
    have hrc' := hrc
    unfold Win.Has at hrc'
    have e1 : w.rowOff + (r - w.rowOff) = r := by omega
    have e2 : w.colOff + (c - w.colOff) = c := by omega
    rcases (FInv.steps ht hs i w hw).mixed hrc with h | ⟨t, h1, h2, h3 | ⟨h3, h4⟩⟩
    · exact Or.inl h.2
    · exact Or.inl h3
    · by_cases hm : p.writeMask = true
      · right
        refine ⟨hm, ?_, ?_⟩
        · have hmask := computeTile_mask hmode h1 (r - w.rowOff) (c - w.colOff)
          rw [e1, e2] at hmask
          rw [h3]
          simp only [writeMask, hm, List.length_range', or_true, and_self, if_true, if_pos hrc']
          rw [Bool.not_eq_true', ← Bool.not_eq_true, hmask]
          unfold orthoValid
          simp only [List.mem_range'_1, not_forall]
          constructor
          · rintro ⟨b, hb, hne⟩; exact ⟨b, by omega, by omega, hne⟩
          · rintro ⟨b, hb1, hb2, hne⟩; exact ⟨b, by omega, hne⟩
        · intro b hb1 hb2
          have hk : (List.range' 1 p.count).idxOf? b = some (b - 1) := by
            rw [List.idxOf?_eq_some_iff]
            refine ⟨by simp; omega, by simp; omega, fun j hj => ?_⟩
            simp only [List.getElem_range']
            omega
          have hv := computeTile_val hmode h1 (b - 1) (r - w.rowOff) (c - w.colOff) b
            (by rw [List.getElem?_eq_getElem (by simp; omega)]; simp; omega)
          rw [h4 b]
          simp only [writeData, hk, if_pos hrc']
          rw [hv, e1, e2]
      · left
        rw [h3]
        simp [writeMask, hm]
  cases h with
  | before => exact Or.inl rfl
  | @during w₀ ws _ h1 h2 =>
    simp only [indexList, Bool.false_eq_true, if_false] at h2
    cases h2 with
    | start => exact Or.inl rfl
    | here s hs => exact key _ _ s h1 hs
    | later s hs _ h => cases h with | start => exact key _ _ s h1 hs

theorem Steps.faults {s t : Pool K} (h : Steps p w₀ ws ix s t) : FSteps p w₀ ws ix s t := by
  induction h with
  | refl => exact .refl _
  | tail _ h ih => exact .tail ih (.step h)

/-- C85: band by band the mask is written with the first band.  When the second band cannot be read `_remap` raises, and leaves a pixel
marked as valid of which the second band is still blank, though it has a value. -/
theorem C85_per_band_fails : ∃ (p : RemapIn ℚ (List ℚ)) (im im' : OrthoIm ℚ), p.mode.dilates p.nodata = false ∧
    (∃ e, FRemap p true im (.error e) im') ∧ im'.valid 0 0 = true ∧ im'.data 2 0 0 = im.data 2 0 0 ∧
    im.data 2 0 0 = some 0 ∧ orthoValue p 2 0 0 = some 5 := by
  let p := demo [[3, 7], [5, 6]] 2 2 plainMode
  let im : OrthoIm ℚ := ⟨fun _ _ _ => some 0, fun _ _ => false⟩
  have hb : blockWindows p.out = .ok [⟨0, 0, 2, 1⟩] := by decide +kernel
  have ht := C01_tiles_partition p.out none _ hb
  obtain ⟨⟨im₁, hrun⟩, -⟩ := C02_completes p true im (by decide) (by decide) (by decide) (by decide) (by decide)
  cases hrun with
  | @run w₀ ws _ h1 h2 =>
    rw [hb] at h1
    cases h1
    rw [show indexList true p.count = [[1], [2]] from rfl] at h2
    cases h2 with
    | @cons _ _ _ imA _ hA _ =>
      have hfr := batch_frame ht hA (b := 2) (r := 0) (c := 0) (by decide) (by decide) (by decide)
      obtain ⟨t, g1, g2⟩ := batch_ok ht hA (i := 0) (w := ⟨0, 0, 2, 1⟩) rfl
      have hm := computeTile_mask (by rfl) g1 0 0
      have hv := (g2 0 0 (by decide)).2
      refine ⟨p, im, imA, rfl, ⟨.rasterioError, .run hb ?_⟩, ?_, hfr, rfl, by decide +kernel⟩
      · cases hA with
        | ok s hs hd => exact .cons s hs.faults hd (.read _)
      · rw [hv]
        have : t.mask 0 0 = false := by
          rw [← Bool.not_eq_true, hm]
          decide +kernel
        simp only [writeMask]
        rw [if_pos (by decide)]
        simp [this]

/-- C85: not vacuous.  With all bands at once, a worker that raises while it writes data leaves one band of its pixel written and the other
blank, and the mask untouched. -/
example : ∃ (p : RemapIn ℚ (List ℚ)) (im im' : OrthoIm ℚ), FRemap p false im (.error .runtimeError) im' ∧
    im'.data 1 0 0 = some 3 ∧ im'.data 2 0 0 = some 0 ∧ orthoValue p 2 0 0 = some 5 ∧ im'.valid 0 0 = false := by
  let p := demo [[3, 7], [5, 6]] 2 2 plainMode
  let im : OrthoIm ℚ := ⟨fun _ _ _ => some 0, fun _ _ => false⟩
  have hb : blockWindows p.out = .ok [⟨0, 0, 2, 1⟩] := by decide +kernel
  obtain ⟨t, ht⟩ : ∃ t, computeTile p ⟨0, 0, 2, 1⟩ [1, 2] ⟨0, 0, 2, 1⟩ = .ok t :=
    computeTile_ok (by decide) (by decide) (by decide) (by decide)
  refine ⟨p, im, _, .run hb (.stop _ 0 .osError (.tail (.tail (.tail (.refl _)
    (.step (.compute _ 0 ⟨0, 0, 2, 1⟩ t rfl rfl ht))) (.step (.acquire _ 0 t (by simp [Pool.set]) rfl)))
    (.dieData _ 0 ⟨0, 0, 2, 1⟩ t (fun b _ _ => b = 1) .osError rfl (by simp [Pool.set]) rfl)) ?_ (by simp [Pool.set])), ?_⟩
  · intro i hi
    have : i = 0 := by simpa using hi
    subst this
    simp [Pool.set, Phase.finished]
  · have hv := computeTile_val (by rfl) ht 0 0 0 1 rfl
    refine ⟨?_, rfl, by decide +kernel, rfl⟩
    simp only [Pool.init]
    rw [if_pos (by simp)]
    show t.val 0 0 0 = _
    rw [hv]
    decide +kernel

end Verif.Ortho
