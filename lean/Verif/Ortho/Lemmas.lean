import Verif.Ortho.Spec
import Verif.Tiles.Props

set_option autoImplicit false
set_option linter.unusedSectionVars false

namespace Verif.Ortho
open Verif.Tiles

variable {K : Type} [Field K] [DecidableEq K] {Src : Type}

theorem nanEquals_iff (a b : Pix K) : nanEquals a b = true ↔ a = b := by
  unfold nanEquals pyEq
  cases a <;> cases b <;> simp

theorem two_le_countP {α : Type} (l : List α) (p : α → Bool) {i j : ℕ} {a b : α}
    (hi : l[i]? = some a) (hj : l[j]? = some b) (ha : p a = true) (hb : p b = true) (h : i ≠ j) :
    2 ≤ l.countP p := by
  induction l generalizing i j with
  | nil => simp at hi
  | cons x l ih =>
    cases i with
    | zero =>
      cases j with
      | zero => exact absurd rfl h
      | succ j =>
        simp only [List.getElem?_cons_zero, Option.some.injEq] at hi
        simp only [List.getElem?_cons_succ] at hj
        subst hi
        rw [List.countP_cons_of_pos ha]
        have : 0 < l.countP p := List.countP_pos_iff.2 ⟨b, List.mem_of_getElem? hj, hb⟩
        omega
    | succ i =>
      cases j with
      | zero =>
        simp only [List.getElem?_cons_zero, Option.some.injEq] at hj
        simp only [List.getElem?_cons_succ] at hi
        subst hj
        rw [List.countP_cons_of_pos hb]
        have : 0 < l.countP p := List.countP_pos_iff.2 ⟨a, List.mem_of_getElem? hi, ha⟩
        omega
      | succ j =>
        simp only [List.getElem?_cons_succ] at hi hj
        have := ih hi hj (by omega)
        rw [List.countP_cons]
        omega

theorem tiling_unique {H W : ℕ} {ws : List Win} (ht : Tiling H W ws) {i j : ℕ} {w w' : Win}
    (hi : ws[i]? = some w) (hj : ws[j]? = some w') {r c : ℕ} (h : w.Has r c) (h' : w'.Has r c) : i = j := by
  by_contra hne
  have hin := ht.inside w (List.mem_of_getElem? hi)
  have hh := h
  unfold Win.Has at hh
  have h1 := ht.once r (by omega) c (by omega)
  have h2 := two_le_countP ws (fun w => decide (w.Has r c)) hi hj (decide_eq_true h) (decide_eq_true h') hne
  omega

theorem tiling_exists {H W : ℕ} {ws : List Win} (ht : Tiling H W ws) {r c : ℕ} (hr : r < H) (hc : c < W) :
    ∃ (i : ℕ) (w : Win), ws[i]? = some w ∧ w.Has r c := by
  have h1 := ht.once r hr c hc
  have : 0 < ws.countP (fun w => decide (w.Has r c)) := by omega
  obtain ⟨w, hw, hh⟩ := List.countP_pos_iff.1 this
  obtain ⟨i, hi⟩ := List.mem_iff_getElem?.1 hw
  exact ⟨i, w, hi, by simpa using hh⟩

/-- What is true of a job in each phase, at the pixels of its window. -/
def JobInv (p : RemapIn K Src) (w₀ : Win) (ix : List ℕ) (im₀ : OrthoIm K) (s : Pool K) (i : ℕ) (w : Win) :
    Prop :=
  match s.phase i with
  | .pending => (∀ r c, w.Has r c → (∀ b, s.im.data b r c = im₀.data b r c) ∧ s.im.valid r c = im₀.valid r c)
      ∧ s.lock ≠ some i
  | .computed t => computeTile p w₀ ix w = .ok t ∧
      (∀ r c, w.Has r c → (∀ b, s.im.data b r c = im₀.data b r c) ∧ s.im.valid r c = im₀.valid r c)
      ∧ s.lock ≠ some i
  | .locked t => computeTile p w₀ ix w = .ok t ∧
      (∀ r c, w.Has r c → (∀ b, s.im.data b r c = im₀.data b r c) ∧ s.im.valid r c = im₀.valid r c)
      ∧ s.lock = some i
  | .dataDone t => computeTile p w₀ ix w = .ok t ∧
      (∀ r c, w.Has r c → (∀ b, s.im.data b r c = (writeData im₀ ix w t).data b r c) ∧
        s.im.valid r c = im₀.valid r c)
      ∧ s.lock = some i
  | .done => (∃ t, computeTile p w₀ ix w = .ok t ∧
      (∀ r c, w.Has r c → (∀ b, s.im.data b r c = (writeData im₀ ix w t).data b r c) ∧
        s.im.valid r c = (writeMask p im₀ ix w t).valid r c))
      ∧ s.lock ≠ some i
  | .failed e => computeTile p w₀ ix w = .error e ∧
      (∀ r c, w.Has r c → (∀ b, s.im.data b r c = im₀.data b r c) ∧ s.im.valid r c = im₀.valid r c)
      ∧ s.lock ≠ some i

theorem writeData_outside {im : OrthoIm K} {ix : List ℕ} {w : Win} {t : Tile K} {r c : ℕ}
    (h : ¬ w.Has r c) (b : ℕ) : (writeData im ix w t).data b r c = im.data b r c := by
  simp only [writeData]
  exact if_neg h

theorem writeData_valid {im : OrthoIm K} {ix : List ℕ} {w : Win} {t : Tile K} {r c : ℕ} :
    (writeData im ix w t).valid r c = im.valid r c := rfl

theorem writeMask_data {p : RemapIn K Src} {im : OrthoIm K} {ix : List ℕ} {w : Win} {t : Tile K} {b r c : ℕ} :
    (writeMask p im ix w t).data b r c = im.data b r c := by
  unfold writeMask
  split <;> rfl

theorem writeMask_outside {p : RemapIn K Src} {im : OrthoIm K} {ix : List ℕ} {w : Win} {t : Tile K} {r c : ℕ}
    (h : ¬ w.Has r c) : (writeMask p im ix w t).valid r c = im.valid r c := by
  unfold writeMask
  split
  · exact if_neg h
  · rfl

theorem writeData_congr {im im' : OrthoIm K} {ix : List ℕ} {w : Win} {t : Tile K} {b r c : ℕ}
    (h : im.data b r c = im'.data b r c) :
    (writeData im ix w t).data b r c = (writeData im' ix w t).data b r c := by
  simp only [writeData]
  split
  · split <;> simp_all
  · exact h

theorem writeMask_congr {p : RemapIn K Src} {im im' : OrthoIm K} {ix : List ℕ} {w : Win} {t : Tile K} {r c : ℕ}
    (h : im.valid r c = im'.valid r c) :
    (writeMask p im ix w t).valid r c = (writeMask p im' ix w t).valid r c := by
  unfold writeMask
  split
  · simp only
    split <;> simp_all
  · exact h

variable {p : RemapIn K Src} {w₀ : Win} {ws : List Win} {ix : List ℕ} {im₀ : OrthoIm K}

/-- A job in a phase other than its own step keeps its invariant when the image does not change on its
window and the lock does not move to or from it. -/
theorem JobInv.frame {s s' : Pool K} {i : ℕ} {w : Win} (h : JobInv p w₀ ix im₀ s i w)
    (hph : s'.phase i = s.phase i)
    (hd : ∀ r c, w.Has r c → (∀ b, s'.im.data b r c = s.im.data b r c) ∧ s'.im.valid r c = s.im.valid r c)
    (hl : s'.lock = some i ↔ s.lock = some i) : JobInv p w₀ ix im₀ s' i w := by
  unfold JobInv at h ⊢
  rw [hph]
  cases hp : s.phase i <;> rw [hp] at h <;> simp only [ne_eq, hl] at h ⊢
  · refine ⟨fun r c hrc => ?_, h.2⟩
    have h1 := h.1 r c hrc
    exact ⟨fun b => by rw [(hd r c hrc).1 b, h1.1 b], by rw [(hd r c hrc).2, h1.2]⟩
  · refine ⟨h.1, fun r c hrc => ?_, h.2.2⟩
    have h1 := h.2.1 r c hrc
    exact ⟨fun b => by rw [(hd r c hrc).1 b, h1.1 b], by rw [(hd r c hrc).2, h1.2]⟩
  · refine ⟨h.1, fun r c hrc => ?_, h.2.2⟩
    have h1 := h.2.1 r c hrc
    exact ⟨fun b => by rw [(hd r c hrc).1 b, h1.1 b], by rw [(hd r c hrc).2, h1.2]⟩
  · refine ⟨h.1, fun r c hrc => ?_, h.2.2⟩
    have h1 := h.2.1 r c hrc
    exact ⟨fun b => by rw [(hd r c hrc).1 b, h1.1 b], by rw [(hd r c hrc).2, h1.2]⟩
  · obtain ⟨⟨t, ht, h1⟩, h2⟩ := h
    refine ⟨⟨t, ht, fun r c hrc => ?_⟩, h2⟩
    exact ⟨fun b => by rw [(hd r c hrc).1 b, (h1 r c hrc).1 b], by rw [(hd r c hrc).2, (h1 r c hrc).2]⟩
  · refine ⟨h.1, fun r c hrc => ?_, h.2.2⟩
    have h1 := h.2.1 r c hrc
    exact ⟨fun b => by rw [(hd r c hrc).1 b, h1.1 b], by rw [(hd r c hrc).2, h1.2]⟩

theorem JobInv.step {H W : ℕ} (ht : Tiling H W ws) {s s' : Pool K}
    (hinv : ∀ i w, ws[i]? = some w → JobInv p w₀ ix im₀ s i w) (hst : Step p w₀ ws ix s s') :
    ∀ i w, ws[i]? = some w → JobInv p w₀ ix im₀ s' i w := by
  intro k v hk
  have hI := hinv k v hk
  cases hst with
  | compute i w t hw hp hc =>
    by_cases e : k = i
    · subst e
      rw [hw] at hk; cases hk
      unfold JobInv at hI ⊢
      simp only [Pool.set, if_true, hp] at hI ⊢
      exact ⟨hc, hI.1, hI.2⟩
    · exact hI.frame (by simp [Pool.set, e]) (fun _ _ _ => ⟨fun _ => rfl, rfl⟩) Iff.rfl
  | fail i w er hw hp hc =>
    by_cases e : k = i
    · subst e
      rw [hw] at hk; cases hk
      unfold JobInv at hI ⊢
      simp only [Pool.set, if_true, hp] at hI ⊢
      exact ⟨hc, hI.1, hI.2⟩
    · exact hI.frame (by simp [Pool.set, e]) (fun _ _ _ => ⟨fun _ => rfl, rfl⟩) Iff.rfl
  | acquire i t hp hl =>
    by_cases e : k = i
    · subst e
      unfold JobInv at hI ⊢
      simp only [Pool.set, if_true, hp] at hI ⊢
      exact ⟨hI.1, hI.2.1, trivial⟩
    · refine hI.frame (by simp [Pool.set, e]) (fun _ _ _ => ⟨fun _ => rfl, rfl⟩) ?_
      simp only [hl, Option.some.injEq]
      constructor
      · intro h; exact absurd h.symm e
      · intro h; cases h
  | data i w t hw hp hl =>
    by_cases e : k = i
    · subst e
      rw [hw] at hk; cases hk
      unfold JobInv at hI ⊢
      simp only [Pool.set, if_true, hp] at hI ⊢
      refine ⟨hI.1, fun r c hrc => ⟨fun b => ?_, ?_⟩, hI.2.2⟩
      · exact writeData_congr ((hI.2.1 r c hrc).1 b)
      · exact (hI.2.1 r c hrc).2
    · refine hI.frame (by simp [Pool.set, e]) (fun r c hrc => ⟨fun b => ?_, rfl⟩) Iff.rfl
      exact writeData_outside (fun h => e (tiling_unique ht hk hw hrc h)) b
  | mask i w t hw hp hl =>
    by_cases e : k = i
    · subst e
      rw [hw] at hk; cases hk
      unfold JobInv at hI ⊢
      simp only [Pool.set, if_true, hp] at hI ⊢
      refine ⟨⟨t, hI.1, fun r c hrc => ⟨fun b => ?_, ?_⟩⟩, by simp⟩
      · rw [writeMask_data]; exact (hI.2.1 r c hrc).1 b
      · exact writeMask_congr (hI.2.1 r c hrc).2
    · refine hI.frame (by simp [Pool.set, e]) (fun r c hrc => ⟨fun b => writeMask_data, ?_⟩) ?_
      · exact writeMask_outside (fun h => e (tiling_unique ht hk hw hrc h))
      · simp only [hl, Option.some.injEq]
        constructor
        · intro h; cases h
        · intro h; exact absurd h.symm e

theorem JobInv.init (im : OrthoIm K) (i : ℕ) (w : Win) : JobInv p w₀ ix im (Pool.init im) i w := by
  unfold JobInv
  simp [Pool.init]

theorem JobInv.steps {H W : ℕ} (ht : Tiling H W ws) {s : Pool K}
    (hst : Steps p w₀ ws ix (Pool.init im₀) s) :
    ∀ i w, ws[i]? = some w → JobInv p w₀ ix im₀ s i w := by
  induction hst with
  | refl => intro i w _; exact JobInv.init im₀ i w
  | tail _ h2 ih => exact JobInv.step ht ih h2

/-- Pixels outside all windows never change. -/
theorem steps_lock_range {s : Pool K} (hst : Steps p w₀ ws ix (Pool.init im₀) s) :
    (∀ i, s.phase i ≠ .pending → i < ws.length) ∧ (∀ i, s.lock = some i → i < ws.length) := by
  have lt : ∀ {i : ℕ} {w : Win}, ws[i]? = some w → i < ws.length := fun h =>
    (List.getElem?_eq_some_iff.1 h).1
  induction hst with
  | refl => simp [Pool.init]
  | tail _ h2 ih =>
    obtain ⟨ih1, ih2⟩ := ih
    cases h2 with
    | compute i w t hw hp hc =>
      refine ⟨fun k hk => ?_, ih2⟩
      by_cases e : k = i
      · exact e ▸ lt hw
      · exact ih1 k (by simpa [Pool.set, e] using hk)
    | fail i w t hw hp hc =>
      refine ⟨fun k hk => ?_, ih2⟩
      by_cases e : k = i
      · exact e ▸ lt hw
      · exact ih1 k (by simpa [Pool.set, e] using hk)
    | acquire i t hp hl =>
      refine ⟨fun k hk => ?_, fun k hk => ?_⟩
      · by_cases e : k = i
        · exact e ▸ ih1 i (by simp [hp])
        · exact ih1 k (by simpa [Pool.set, e] using hk)
      · simp only [Option.some.injEq] at hk
        exact hk ▸ ih1 i (by simp [hp])
    | data i w t hw hp hl =>
      refine ⟨fun k hk => ?_, ih2⟩
      by_cases e : k = i
      · exact e ▸ lt hw
      · exact ih1 k (by simpa [Pool.set, e] using hk)
    | mask i w t hw hp hl =>
      refine ⟨fun k hk => ?_, fun k hk => by cases hk⟩
      by_cases e : k = i
      · exact e ▸ lt hw
      · exact ih1 k (by simpa [Pool.set, e] using hk)

/-- A complete batch: every pixel of every window holds what its tile worker wrote. -/
theorem batch_ok {H W : ℕ} (ht : Tiling H W ws) {im' : OrthoIm K}
    (h : Batch p w₀ ws ix im₀ (.ok im')) {i : ℕ} {w : Win} (hw : ws[i]? = some w) :
    ∃ t, computeTile p w₀ ix w = .ok t ∧ ∀ r c, w.Has r c →
      (∀ b, im'.data b r c = (writeData im₀ ix w t).data b r c) ∧
      im'.valid r c = (writeMask p im₀ ix w t).valid r c := by
  cases h with
  | ok s hs hd =>
    have := JobInv.steps ht hs i w hw
    unfold JobInv at this
    rw [hd i (List.getElem?_eq_some_iff.1 hw).1] at this
    exact this.1

theorem batch_error {H W : ℕ} (ht : Tiling H W ws) {e : PyErr}
    (h : Batch p w₀ ws ix im₀ (.error e)) :
    e = .runtimeError ∧ ∃ w ∈ ws, ∃ e', computeTile p w₀ ix w = .error e' := by
  cases h with
  | error s i e' hs hf hp =>
    refine ⟨rfl, ?_⟩
    have hi := (steps_lock_range hs).1 i (by simp [hp])
    have hw : ws[i]? = some ws[i] := List.getElem?_eq_getElem hi
    have := JobInv.steps ht hs i _ hw
    unfold JobInv at this
    rw [hp] at this
    exact ⟨_, List.getElem_mem hi, _, this.1⟩

theorem Steps.trans {s t u : Pool K} (h1 : Steps p w₀ ws ix s t) (h2 : Steps p w₀ ws ix t u) :
    Steps p w₀ ws ix s u := by
  induction h2 with
  | refl => exact h1
  | tail _ h ih => exact .tail ih h

/-- Running one job from start to end when the lock is free. -/
theorem run_job {s : Pool K} {i : ℕ} {w : Win} {t : Tile K} (hw : ws[i]? = some w)
    (hp : s.phase i = .pending) (hl : s.lock = none) (hc : computeTile p w₀ ix w = .ok t) :
    ∃ s', Steps p w₀ ws ix s s' ∧ s'.lock = none ∧ s'.phase i = .done ∧
      ∀ k, k ≠ i → s'.phase k = s.phase k := by
  let s1 : Pool K := { s with phase := s.set i (.computed t) }
  let s2 : Pool K := { s1 with phase := s1.set i (.locked t), lock := some i }
  let s3 : Pool K := { s2 with phase := s2.set i (.dataDone t), im := writeData s2.im ix w t }
  have h1 : Step p w₀ ws ix s s1 := .compute s i w t hw hp hc
  have h2 : Step p w₀ ws ix s1 s2 := .acquire s1 i t (by simp [s1, Pool.set]) hl
  have h3 : Step p w₀ ws ix s2 s3 := .data s2 i w t hw (by simp [s2, Pool.set]) rfl
  have h4 := Step.mask (p := p) (w₀ := w₀) (indexes := ix) s3 i w t hw (by simp [s3, Pool.set]) rfl
  refine ⟨_, .tail (.tail (.tail (.tail (.refl s) h1) h2) h3) h4, rfl, ?_, ?_⟩
  · simp [Pool.set]
  · intro k hk
    simp [Pool.set, hk, s3, s2, s1]

theorem run_jobs (hc : ∀ w ∈ ws, ∃ t, computeTile p w₀ ix w = .ok t) (n : ℕ) (hn : n ≤ ws.length) :
    ∃ s, Steps p w₀ ws ix (Pool.init im₀) s ∧ s.lock = none ∧ (∀ i < n, s.phase i = .done) ∧
      ∀ i, n ≤ i → s.phase i = .pending := by
  induction n with
  | zero => exact ⟨_, .refl _, rfl, by simp, fun _ _ => rfl⟩
  | succ n ih =>
    obtain ⟨s, h1, h2, h3, h4⟩ := ih (by omega)
    have hw : ws[n]? = some ws[n] := List.getElem?_eq_getElem (by omega)
    obtain ⟨t, ht⟩ := hc _ (List.getElem_mem (by omega : n < ws.length))
    obtain ⟨s', g1, g2, g3, g4⟩ := run_job hw (h4 n le_rfl) h2 ht
    refine ⟨s', h1.trans g1, g2, ?_, ?_⟩
    · intro i hi
      by_cases e : i = n
      · exact e ▸ g3
      · rw [g4 i e]; exact h3 i (by omega)
    · intro i hi
      rw [g4 i (by omega)]; exact h4 i (by omega)

/-- A batch whose tiles do not fail can complete. -/
theorem batch_exists (hc : ∀ w ∈ ws, ∃ t, computeTile p w₀ ix w = .ok t) :
    ∃ im', Batch p w₀ ws ix im₀ (.ok im') := by
  obtain ⟨s, h1, -, h3, -⟩ := run_jobs (im₀ := im₀) hc ws.length le_rfl
  exact ⟨s.im, .ok s h1 h3⟩

/-- Grid of a tile is the grid of pixel centres of the whole image. -/
theorem tileGrids_get (T : Affine K) (w : Win) (r c : ℕ) :
    (tileGrids T (initGrids T w₀) w).get r c = pixelCentre T (w.rowOff + r) (w.colOff + c) := by
  simp only [tileGrids, initGrids, Grid.slice, pixelCentre, Affine.apply, Affine.mul,
    Affine.translation, Affine.window, Prod.mk.injEq]
  push_cast
  constructor <;> ring

/-- With full size grids, a tile computes without error and its shape is that of its window. -/
theorem computeTile_ok (hsrc : p.srcH < shrtMax ∧ p.srcW < shrtMax) {w : Win}
    (hw : w.width ≤ w₀.width ∧ w.height ≤ w₀.height) (hcv : w.width < shrtMax ∧ w.height < shrtMax)
    (hd : w.colOff + w.width ≤ p.dem.w ∧ w.rowOff + w.height ≤ p.dem.h) :
    ∃ t, computeTile p w₀ ix w = .ok t := by
  unfold computeTile
  simp only [remap, cameraRemap]
  rw [if_neg (by omega),
    if_neg (by simp only [tileGrids, Grid.slice, initGrids, not_not, true_and]; omega),
    if_neg (by simp only [tileGrids, Grid.slice, initGrids]; omega)]
  simp only
  split <;> exact ⟨_, rfl⟩

theorem computeTile_val {w : Win} {t : Tile K} (hmode : p.mode.dilates p.nodata = false)
    (h : computeTile p w₀ ix w = .ok t) (k r c b : ℕ) (hb : ix[k]? = some b) :
    t.val k r c = orthoValue p b (w.rowOff + r) (w.colOff + c) := by
  unfold computeTile at h
  simp only [remap, cameraRemap] at h
  split at h
  · cases h
  · rename_i heq
    split at heq
    · cases heq
    · split_ifs at heq
      · cases heq
        rw [hmode] at h
        simp only [Bool.false_eq_true, if_false, Except.ok.injEq] at h
        subst h
        simp only [List.getElem?_map, hb, Option.map_some, orthoValue, remapPix, tileGrids_get,
          Grid.slice]
        cases p.cam.samp _ _ _ <;> rfl

theorem computeTile_mask {w : Win} {t : Tile K} (hmode : p.mode.dilates p.nodata = false)
    (h : computeTile p w₀ ix w = .ok t) (r c : ℕ) :
    t.mask r c = true ↔ ∀ b ∈ ix, orthoValue p b (w.rowOff + r) (w.colOff + c) = p.nodata := by
  have hv := computeTile_val hmode h
  have hm : t.mask r c = ((List.range ix.length).all fun k => nanEquals (t.val k r c) p.nodata) := by
    unfold computeTile at h
    simp only [remap, cameraRemap] at h
    split at h
    · cases h
    · rename_i heq
      split at heq
      · cases heq
      · split_ifs at heq
        · cases heq
          rw [hmode] at h
          simp only [Bool.false_eq_true, if_false, Except.ok.injEq] at h
          subst h
          simp
  rw [hm, List.all_eq_true]
  constructor
  · intro h b hb
    obtain ⟨k, hk⟩ := List.mem_iff_getElem?.1 hb
    rw [← hv k r c b hk]
    exact (nanEquals_iff _ _).1 (h k (List.mem_range.2 (List.getElem?_eq_some_iff.1 hk).1))
  · intro h k hk
    have hk' := List.getElem?_eq_getElem (List.mem_range.1 hk)
    rw [nanEquals_iff, hv k r c _ hk']
    exact h _ (List.getElem_mem _)

end Verif.Ortho
