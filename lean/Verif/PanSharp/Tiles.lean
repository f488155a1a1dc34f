import Verif.PanSharp.Stats
import Verif.Ortho.Lemmas
import Verif.Common.Props

/-!
# C52: writing pan-sharpened tiles
-/

set_option autoImplicit false
set_option linter.unusedSectionVars false

namespace Verif.PanSharp
open Verif.Tiles Verif.Ortho Verif.Common

variable {K : Type} [Field K] [LinearOrder K] [IsStrictOrderedRing K] [FloorRing K]

/-! ## Model -/

/-- One pixel of the output file: the bands, the dataset mask, and (for the proofs only) how many times data was
written to it. -/
structure OutCell (K : Type) where
  data : ℕ → Val K
  valid : Bool
  writes : ℕ

/-- The nodata value of a data type, `_nodata_vals` (orthority/common.py:58-60). -/
def nodataOf (K : Type) : Dt → Val K
  | .uint8 => .int 0
  | .uint16 => .int 0
  | .int16 => .int (-32768)
  | .float32 => .nan
  | .float64 => .nan

/-- Zero of a data type. -/
def zeroOf (dt : Dt) : Val K := if dt.isInt then .int 0 else .fin 0

/-- `out_im.nodata`: none with an internal mask (orthority/common.py:489-496, C12), else that of the type. -/
def outNodata (writeMask : Bool) (dt : Dt) : Option (Val K) := if writeMask then none else some (nodataOf K dt)

/-- `out_im.nodata or 0`, orthority/pan_sharp.py:508: zero when nodata is `None` or zero. -/
def fillValue (writeMask : Bool) (dt : Dt) : Val K :=
  match outNodata (K := K) writeMask dt with
  | none => zeroOf dt
  | some v => if v = .int 0 then zeroOf dt else v

/-- Inputs of the tile workers, orthority/pan_sharp.py:639-655.  `im` are the images on the pan grid, `params` the
result of `_get_params`, `out` the output dataset, `readErr` tells which tiles cannot be read. -/
structure SharpIn (K : Type) where
  im : Images K
  params : Params (Fl K)
  env : CastEnv K
  dt : Dt
  writeMask : Bool
  out : ImInfo
  readErr : Win → Option PyErr

/-- A finite or NaN number as array value.  (`Fl.nan` also stands for infinities here.) -/
def toVal : Fl K → Val K
  | .val x => .fin x
  | .nan => .nan

/-- What `_process_tile` has before it takes the lock: `out_array` and `mask`. -/
structure SharpTile (K : Type) where
  val : ℕ → ℕ → ℕ → Val K
  mask : ℕ → ℕ → Bool

/-- orthority/pan_sharp.py:491-509 `_process_tile`, before the lock.  Reads hold `_pan_lock` and `_ms_lock`, and
change nothing. -/
def computeSharp (p : SharpIn K) (w : Win) : Res (SharpTile K) :=
  match p.readErr w with
  | some e => .error e
  | none =>
    let mask := fun r c => p.im.mask (w.rowOff + r) (w.colOff + c)
    .ok {
      val := fun b r c =>
        if mask r c then
          let v := p.im.vec (w.rowOff + r, w.colOff + c)
          convertDtype p.env .float64 p.dt
            (toVal (sharpen p.im.n p.params (.val (v 0)) (fun i => .val (v (i + 1))) b))
        else fillValue p.writeMask p.dt
      mask := mask }

/-- `out_im.write(out_array, window=tile_win)`, orthority/pan_sharp.py:513. -/
def writeArr (w : Win) (t : SharpTile K) (im : ℕ → ℕ → OutCell K) : ℕ → ℕ → OutCell K := fun r c =>
  if w.rowOff ≤ r ∧ r < w.rowOff + w.height ∧ w.colOff ≤ c ∧ c < w.colOff + w.width then
    { im r c with data := fun b => t.val b (r - w.rowOff) (c - w.colOff), writes := (im r c).writes + 1 }
  else im r c

/-- `out_im.write_mask(mask, window=tile_win)` under its condition, orthority/pan_sharp.py:514-515. -/
def writeMsk (p : SharpIn K) (w : Win) (t : SharpTile K) (im : ℕ → ℕ → OutCell K) : ℕ → ℕ → OutCell K := fun r c =>
  if p.writeMask ∧ w.rowOff ≤ r ∧ r < w.rowOff + w.height ∧ w.colOff ≤ c ∧ c < w.colOff + w.width then
    { im r c with valid := t.mask (r - w.rowOff) (c - w.colOff) }
  else im r c

/-- Where a worker is in `_process_tile`. -/
inductive SPhase (K : Type)
  | pending
  | computed (t : SharpTile K)
  | locked (t : SharpTile K)
  | dataDone (t : SharpTile K)
  | done
  | failed (e : PyErr)

/-- State of the thread pool: phases, holder of `_out_lock`, output file. -/
structure SPool (K : Type) where
  phase : ℕ → SPhase K
  lock : Option ℕ
  im : ℕ → ℕ → OutCell K

def SPool.set (s : SPool K) (i : ℕ) (ph : SPhase K) : ℕ → SPhase K := fun k => if k = i then ph else s.phase k

/-- One step of some worker, orthority/pan_sharp.py:491-515 run by the executor of lines 640-655. -/
inductive SStep (p : SharpIn K) (wins : List Win) : SPool K → SPool K → Prop
  | compute (s : SPool K) (i : ℕ) (w : Win) (t : SharpTile K) :
      wins[i]? = some w → s.phase i = .pending → computeSharp p w = .ok t →
      SStep p wins s { s with phase := s.set i (.computed t) }
  | fail (s : SPool K) (i : ℕ) (w : Win) (e : PyErr) :
      wins[i]? = some w → s.phase i = .pending → computeSharp p w = .error e →
      SStep p wins s { s with phase := s.set i (.failed e) }
  | acquire (s : SPool K) (i : ℕ) (t : SharpTile K) :
      s.phase i = .computed t → s.lock = none →
      SStep p wins s { s with phase := s.set i (.locked t), lock := some i }
  | data (s : SPool K) (i : ℕ) (w : Win) (t : SharpTile K) :
      wins[i]? = some w → s.phase i = .locked t → s.lock = some i →
      SStep p wins s { s with phase := s.set i (.dataDone t), im := writeArr w t s.im }
  | mask (s : SPool K) (i : ℕ) (w : Win) (t : SharpTile K) :
      wins[i]? = some w → s.phase i = .dataDone t → s.lock = some i →
      SStep p wins s { phase := s.set i .done, lock := none, im := writeMsk p w t s.im }

/-- Any number of worker steps. -/
inductive SSteps (p : SharpIn K) (wins : List Win) : SPool K → SPool K → Prop
  | refl (s : SPool K) : SSteps p wins s s
  | tail {s t u : SPool K} : SSteps p wins s t → SStep p wins t u → SSteps p wins s u

def SPool.init (im : ℕ → ℕ → OutCell K) : SPool K := ⟨fun _ => .pending, none, im⟩

def SPhase.finished : SPhase K → Prop
  | .done => True
  | .failed _ => True
  | _ => False

/-- orthority/pan_sharp.py:639-667: outcome of the sharpening part of `process`.  Tiles are those of the output
file.  The executor waits for all workers; `RuntimeError` when a worker failed. -/
inductive Sharpened (p : SharpIn K) (im : ℕ → ℕ → OutCell K) : Res (ℕ → ℕ → OutCell K) → Prop
  | ok (wins : List Win) (s : SPool K) : blockWindows p.out = .ok wins → SSteps p wins (SPool.init im) s →
      (∀ i < wins.length, s.phase i = .done) → Sharpened p im (.ok s.im)
  | error (wins : List Win) (s : SPool K) (i : ℕ) (e : PyErr) : blockWindows p.out = .ok wins →
      SSteps p wins (SPool.init im) s → (∀ i < wins.length, (s.phase i).finished) → s.phase i = .failed e →
      Sharpened p im (.error .runtimeError)
  | block (e : PyErr) : blockWindows p.out = .error e → Sharpened p im (.error e)

/-! ## Proof -/

/-- Cell of the output once its tile is written. -/
def finalCell (p : SharpIn K) (w : Win) (t : SharpTile K) (im : ℕ → ℕ → OutCell K) (r c : ℕ) : OutCell K :=
  writeMsk p w t (writeArr w t im) r c

def SInv (p : SharpIn K) (im₀ : ℕ → ℕ → OutCell K) (s : SPool K) (i : ℕ) (w : Win) : Prop :=
  match s.phase i with
  | .pending => (∀ r c, w.Has r c → s.im r c = im₀ r c) ∧ s.lock ≠ some i
  | .computed t => computeSharp p w = .ok t ∧ (∀ r c, w.Has r c → s.im r c = im₀ r c) ∧ s.lock ≠ some i
  | .locked t => computeSharp p w = .ok t ∧ (∀ r c, w.Has r c → s.im r c = im₀ r c) ∧ s.lock = some i
  | .dataDone t => computeSharp p w = .ok t ∧ (∀ r c, w.Has r c → s.im r c = writeArr w t im₀ r c) ∧ s.lock = some i
  | .done => (∃ t, computeSharp p w = .ok t ∧ ∀ r c, w.Has r c → s.im r c = finalCell p w t im₀ r c) ∧ s.lock ≠ some i
  | .failed e => computeSharp p w = .error e ∧ (∀ r c, w.Has r c → s.im r c = im₀ r c) ∧ s.lock ≠ some i

theorem writeArr_outside {im : ℕ → ℕ → OutCell K} {w : Win} {t : SharpTile K} {r c : ℕ} (h : ¬ w.Has r c) :
    writeArr w t im r c = im r c := if_neg h

theorem writeMsk_outside {p : SharpIn K} {im : ℕ → ℕ → OutCell K} {w : Win} {t : SharpTile K} {r c : ℕ}
    (h : ¬ w.Has r c) : writeMsk p w t im r c = im r c := if_neg (fun h' => h h'.2)

theorem writeArr_congr {im im' : ℕ → ℕ → OutCell K} {w : Win} {t : SharpTile K} {r c : ℕ} (h : im r c = im' r c) :
    writeArr w t im r c = writeArr w t im' r c := by
  unfold writeArr; rw [h]

theorem writeMsk_congr {p : SharpIn K} {im im' : ℕ → ℕ → OutCell K} {w : Win} {t : SharpTile K} {r c : ℕ}
    (h : im r c = im' r c) : writeMsk p w t im r c = writeMsk p w t im' r c := by
  unfold writeMsk; rw [h]

variable {p : SharpIn K} {ws : List Win} {im₀ : ℕ → ℕ → OutCell K}

theorem SInv.frame {s s' : SPool K} {i : ℕ} {w : Win} (h : SInv p im₀ s i w) (hph : s'.phase i = s.phase i)
    (hd : ∀ r c, w.Has r c → s'.im r c = s.im r c) (hl : s'.lock = some i ↔ s.lock = some i) :
    SInv p im₀ s' i w := by
  unfold SInv at h ⊢
  rw [hph]
  cases hp : s.phase i <;> rw [hp] at h <;> simp only [ne_eq, hl] at h ⊢
  · exact ⟨fun r c hrc => (hd r c hrc).trans (h.1 r c hrc), h.2⟩
  · exact ⟨h.1, fun r c hrc => (hd r c hrc).trans (h.2.1 r c hrc), h.2.2⟩
  · exact ⟨h.1, fun r c hrc => (hd r c hrc).trans (h.2.1 r c hrc), h.2.2⟩
  · exact ⟨h.1, fun r c hrc => (hd r c hrc).trans (h.2.1 r c hrc), h.2.2⟩
  · obtain ⟨⟨t, ht, h1⟩, h2⟩ := h
    exact ⟨⟨t, ht, fun r c hrc => (hd r c hrc).trans (h1 r c hrc)⟩, h2⟩
  · exact ⟨h.1, fun r c hrc => (hd r c hrc).trans (h.2.1 r c hrc), h.2.2⟩

theorem SInv.step {H W : ℕ} (ht : Tiling H W ws) {s s' : SPool K}
    (hinv : ∀ i w, ws[i]? = some w → SInv p im₀ s i w) (hst : SStep p ws s s') :
    ∀ i w, ws[i]? = some w → SInv p im₀ s' i w := by
  intro k v hk
  have hI := hinv k v hk
  cases hst with
  | compute i w t hw hp hc =>
    by_cases e : k = i
    · subst e
      rw [hw] at hk; cases hk
      unfold SInv at hI ⊢
      simp only [SPool.set, if_true, hp] at hI ⊢
      exact ⟨hc, hI.1, hI.2⟩
    · exact hI.frame (by simp [SPool.set, e]) (fun _ _ _ => rfl) Iff.rfl
  | fail i w er hw hp hc =>
    by_cases e : k = i
    · subst e
      rw [hw] at hk; cases hk
      unfold SInv at hI ⊢
      simp only [SPool.set, if_true, hp] at hI ⊢
      exact ⟨hc, hI.1, hI.2⟩
    · exact hI.frame (by simp [SPool.set, e]) (fun _ _ _ => rfl) Iff.rfl
  | acquire i t hp hl =>
    by_cases e : k = i
    · subst e
      unfold SInv at hI ⊢
      simp only [SPool.set, if_true, hp] at hI ⊢
      exact ⟨hI.1, hI.2.1, trivial⟩
    · refine hI.frame (by simp [SPool.set, e]) (fun _ _ _ => rfl) ?_
      simp only [hl, Option.some.injEq]
      constructor
      · intro h; exact absurd h.symm e
      · intro h; cases h
  | data i w t hw hp hl =>
    by_cases e : k = i
    · subst e
      rw [hw] at hk; cases hk
      unfold SInv at hI ⊢
      simp only [SPool.set, if_true, hp] at hI ⊢
      exact ⟨hI.1, fun r c hrc => writeArr_congr (hI.2.1 r c hrc), hI.2.2⟩
    · refine hI.frame (by simp [SPool.set, e]) (fun r c hrc => ?_) Iff.rfl
      exact writeArr_outside (fun h => e (tiling_unique ht hk hw hrc h))
  | mask i w t hw hp hl =>
    by_cases e : k = i
    · subst e
      rw [hw] at hk; cases hk
      unfold SInv at hI ⊢
      simp only [SPool.set, if_true, hp] at hI ⊢
      exact ⟨⟨t, hI.1, fun r c hrc => writeMsk_congr (hI.2.1 r c hrc)⟩, by simp⟩
    · refine hI.frame (by simp [SPool.set, e]) (fun r c hrc => ?_) ?_
      · exact writeMsk_outside (fun h => e (tiling_unique ht hk hw hrc h))
      · simp only [hl, Option.some.injEq]
        constructor
        · intro h; cases h
        · intro h; exact absurd h.symm e

theorem SInv.steps {H W : ℕ} (ht : Tiling H W ws) {s : SPool K} (hst : SSteps p ws (SPool.init im₀) s) :
    ∀ i w, ws[i]? = some w → SInv p im₀ s i w := by
  induction hst with
  | refl => intro i w _; unfold SInv; simp [SPool.init]
  | tail _ h2 ih => exact SInv.step ht ih h2

theorem ssteps_range {s : SPool K} (hst : SSteps p ws (SPool.init im₀) s) :
    ∀ i, s.phase i ≠ .pending → i < ws.length := by
  have lt : ∀ {i : ℕ} {w : Win}, ws[i]? = some w → i < ws.length := fun h => (List.getElem?_eq_some_iff.1 h).1
  induction hst with
  | refl => simp [SPool.init]
  | tail _ h2 ih =>
    cases h2 with
    | compute i w t hw hp hc =>
      intro k hk
      by_cases e : k = i
      · exact e ▸ lt hw
      · exact ih k (by simpa [SPool.set, e] using hk)
    | fail i w t hw hp hc =>
      intro k hk
      by_cases e : k = i
      · exact e ▸ lt hw
      · exact ih k (by simpa [SPool.set, e] using hk)
    | acquire i t hp hl =>
      intro k hk
      by_cases e : k = i
      · exact e ▸ ih i (by simp [hp])
      · exact ih k (by simpa [SPool.set, e] using hk)
    | data i w t hw hp hl =>
      intro k hk
      by_cases e : k = i
      · exact e ▸ lt hw
      · exact ih k (by simpa [SPool.set, e] using hk)
    | mask i w t hw hp hl =>
      intro k hk
      by_cases e : k = i
      · exact e ▸ lt hw
      · exact ih k (by simpa [SPool.set, e] using hk)

theorem fillValue_eq (wm : Bool) (dt : Dt) :
    fillValue (K := K) wm dt = if wm then zeroOf dt else nodataOf K dt := by
  cases wm <;> cases dt <;> simp [fillValue, outNodata, nodataOf, zeroOf, Dt.isInt]

/-! ## Specification and theorems -/

/-- The sharpened value of band `b` at a valid pixel, in the output type. -/
def sharpValue (p : SharpIn K) (b r c : ℕ) : Val K :=
  convertDtype p.env .float64 p.dt
    (toVal (sharpen p.im.n p.params (.val (p.im.vec (r, c) 0)) (fun i => .val (p.im.vec (r, c) (i + 1))) b))

/-- C52: however the workers are scheduled, when sharpening returns each pixel of the output has been written
once; it holds the sharpened value in the output type where pan and all MS bands are valid, and elsewhere the nodata
value of the type (zero when there is an internal mask).  With an internal mask, the mask is the validity. -/
theorem C52_pixels (p : SharpIn K) (im im' : ℕ → ℕ → OutCell K) (h : Sharpened p im (.ok im')) :
    ∀ r < p.out.height, ∀ c < p.out.width,
      (∀ b, (im' r c).data b = if p.im.Valid (r, c) then sharpValue p b r c
        else if p.writeMask then zeroOf p.dt else nodataOf K p.dt) ∧
      (im' r c).valid = (if p.writeMask then decide (p.im.Valid (r, c)) else (im r c).valid) ∧
      (im' r c).writes = (im r c).writes + 1 := by
  intro r hr c hc
  cases h with
  | ok wins s hw hs hd =>
    have ht := C01_tiles_partition _ _ _ hw
    obtain ⟨i, w, hi, hh⟩ := tiling_exists ht hr hc
    have hI := SInv.steps ht hs i w hi
    unfold SInv at hI
    rw [hd i (List.getElem?_eq_some_iff.1 hi).1] at hI
    obtain ⟨⟨t, ht', hcell⟩, -⟩ := hI
    have hh' : w.rowOff ≤ r ∧ r < w.rowOff + w.height ∧ w.colOff ≤ c ∧ c < w.colOff + w.width := hh
    have e1 : w.rowOff + (r - w.rowOff) = r := by omega
    have e2 : w.colOff + (c - w.colOff) = c := by omega
    unfold computeSharp at ht'
    split at ht'
    · cases ht'
    simp only [Except.ok.injEq] at ht'
    subst ht'
    rw [hcell r c hh]
    have hmask : p.im.mask r c = decide (p.im.Valid (r, c)) := by
      rw [Bool.eq_iff_iff, mask_iff, decide_eq_true_eq]
    unfold finalCell writeMsk writeArr
    simp only [hh', and_true, e1, e2, if_true, fillValue_eq, hmask]
    cases hwm : p.writeMask <;> simp [sharpValue]

/-- C52: the value of a pixel without data in all bands, by the output type: without an internal mask 0 for unsigned types, -32768 for int16 and NaN for
floating point types; with an internal mask zero. -/
theorem C52_nodata (p : SharpIn K) (im im' : ℕ → ℕ → OutCell K) (h : Sharpened p im (.ok im')) (r c : ℕ) (hr : r < p.out.height)
    (hc : c < p.out.width) (hv : ¬ p.im.Valid (r, c)) (b : ℕ) :
    (im' r c).data b = match p.writeMask, p.dt with
      | _, .uint8 => .int 0
      | _, .uint16 => .int 0
      | false, .int16 => .int (-32768)
      | true, .int16 => .int 0
      | false, .float32 => .nan
      | false, .float64 => .nan
      | true, .float32 => .fin 0
      | true, .float64 => .fin 0 := by
  rw [(C52_pixels p im im' h r hr c hc).1 b, if_neg hv]
  cases p.writeMask <;> cases p.dt <;> rfl

/-- C52: the output does not depend on the schedule. -/
theorem C52_schedule_independent (p : SharpIn K) (im a b : ℕ → ℕ → OutCell K) (ha : Sharpened p im (.ok a))
    (hb : Sharpened p im (.ok b)) :
    ∀ r < p.out.height, ∀ c < p.out.width, (∀ k, (a r c).data k = (b r c).data k) ∧ (a r c).valid = (b r c).valid := by
  intro r hr c hc
  have h1 := C52_pixels p im a ha r hr c hc
  have h2 := C52_pixels p im b hb r hr c hc
  exact ⟨fun k => (h1.1 k).trans (h2.1 k).symm, h1.2.1.trans h2.2.1.symm⟩

/-- C52: sharpening fails only when a tile cannot be read, or when the output has no block size. -/
theorem C52_errors (p : SharpIn K) (im : ℕ → ℕ → OutCell K) (e : PyErr) (h : Sharpened p im (.error e)) :
    (e = .runtimeError ∧ ∃ w, p.readErr w ≠ none) ∨ blockWindows p.out = .error e := by
  cases h with
  | error wins s i e' hw hs hf hp =>
    left
    refine ⟨rfl, ?_⟩
    have ht := C01_tiles_partition _ _ _ hw
    have hi := ssteps_range hs i (by simp [hp])
    have hI := SInv.steps ht hs i _ (List.getElem?_eq_getElem hi)
    unfold SInv at hI
    rw [hp] at hI
    refine ⟨wins[i], ?_⟩
    intro hn
    have h1 := hI.1
    unfold computeSharp at h1
    rw [hn] at h1
    cases h1
  | block hb => exact .inr ‹_›

theorem SSteps.trans {s t u : SPool K} (h1 : SSteps p ws s t) (h2 : SSteps p ws t u) : SSteps p ws s u := by
  induction h2 with
  | refl => exact h1
  | tail _ h ih => exact .tail ih h

/-- C52: there is a complete run when all tiles can be read. -/
theorem C52_completes (p : SharpIn K) (im : ℕ → ℕ → OutCell K)
    (hb : 0 < (resolveBlock p.out none).1 ∧ 0 < (resolveBlock p.out none).2) (hr : ∀ w, p.readErr w = none) :
    ∃ im', Sharpened p im (.ok im') := by
  obtain ⟨wins, hw⟩ := C01_tiles_defined p.out none hb
  have hc : ∀ w, ∃ t, computeSharp p w = .ok t := by
    intro w; unfold computeSharp; rw [hr w]; exact ⟨_, rfl⟩
  have key : ∀ n ≤ wins.length, ∃ s, SSteps p wins (SPool.init im) s ∧ s.lock = none ∧
      (∀ i < n, s.phase i = .done) ∧ ∀ i, n ≤ i → s.phase i = .pending := by
    intro n
    induction n with
    | zero => intro _; exact ⟨_, .refl _, rfl, by simp, fun _ _ => rfl⟩
    | succ n ih =>
      intro hn
      obtain ⟨s, h1, h2, h3, h4⟩ := ih (by omega)
      have hw' : wins[n]? = some wins[n] := List.getElem?_eq_getElem (by omega)
      obtain ⟨t, ht⟩ := hc wins[n]
      let s1 : SPool K := { s with phase := s.set n (.computed t) }
      let s2 : SPool K := { s1 with phase := s1.set n (.locked t), lock := some n }
      let s3 : SPool K := { s2 with phase := s2.set n (.dataDone t), im := writeArr wins[n] t s2.im }
      have g1 : SStep p wins s s1 := .compute s n _ t hw' (h4 n le_rfl) ht
      have g2 : SStep p wins s1 s2 := .acquire s1 n t (by simp [s1, SPool.set]) h2
      have g3 : SStep p wins s2 s3 := .data s2 n _ t hw' (by simp [s2, SPool.set]) rfl
      have g4 := SStep.mask (p := p) s3 n _ t hw' (by simp [s3, SPool.set]) rfl
      refine ⟨_, .tail (.tail (.tail (.tail h1 g1) g2) g3) g4, rfl, ?_, ?_⟩
      · intro i hi
        by_cases e : i = n
        · simp [SPool.set, e]
        · simp only [SPool.set, e, if_false, s3, s2, s1]
          exact h3 i (by omega)
      · intro i hi
        have e : i ≠ n := by omega
        simp only [SPool.set, e, if_false, s3, s2, s1]
        exact h4 i (by omega)
  obtain ⟨s, h1, -, h3, -⟩ := key wins.length le_rfl
  exact ⟨s.im, .ok wins s hw h1 h3⟩

/-- C52, a consequence for users of nodata: for unsigned output types without an internal mask, a valid pixel whose
sharpened value is below a half holds the same value as the invalid pixels, so the two cannot be told apart. -/
theorem C52_dark_pixels_fails (p : SharpIn K) (hdt : p.dt = .uint8 ∨ p.dt = .uint16) (hm : p.writeMask = false)
    (im im' : ℕ → ℕ → OutCell K) (h : Sharpened p im (.ok im'))
    (b r c : ℕ) (hr : r < p.out.height) (hc : c < p.out.width) (hv : p.im.Valid (r, c)) (x : K) (hx : x < 1 / 2)
    (hs : sharpen p.im.n p.params (.val (p.im.vec (r, c) 0)) (fun i => .val (p.im.vec (r, c) (i + 1))) b = .val x)
    (r' c' : ℕ) (hr' : r' < p.out.height) (hc' : c' < p.out.width) (hv' : ¬ p.im.Valid (r', c')) :
    (im' r c).data b = (im' r' c').data b ∧ (im' r c).valid = (im r c).valid := by
  have hint : p.dt.isInt = true := by rcases hdt with h | h <;> rw [h] <;> rfl
  have hlo : p.dt.lo = 0 := by rcases hdt with h | h <;> rw [h] <;> rfl
  have hhi : 0 < p.dt.hi := by rcases hdt with h | h <;> rw [h] <;> decide
  have hnd : nodataOf K p.dt = .int 0 := by rcases hdt with h | h <;> rw [h] <;> rfl
  have h1 := C52_pixels p im im' h r hr c hc
  have h2 := C52_pixels p im im' h r' hr' c' hc'
  have hrd := abs_le.1 (rint_near x).1
  have hlt : rint x < 1 := by
    have : ((rint x : ℤ) : K) < ((1 : ℤ) : K) := by push_cast; linarith [hrd.1]
    exact_mod_cast this
  refine ⟨?_, by rw [h1.2.1, hm]; rfl⟩
  rw [h1.1 b, h2.1 b, if_pos hv, if_neg hv', hm, hnd]
  unfold sharpValue
  rw [hs]
  show convertDtype p.env .float64 p.dt (.fin x) = .int 0
  rw [convert_fin_int p.env .float64 p.dt rfl hint x, hlo, max_eq_right (by omega), min_eq_left hhi.le]

/-- A run of the demonstration images: 2 x 3 pixels in four tiles, one pixel invalid. -/
def demoSharp : SharpIn ℚ where
  im := demoImages
  params := ⟨fun _ => .val 0, fun _ _ => .val 0, fun _ => .val (1 / 2), .val 1, .val 0⟩
  env := ⟨.fin, fun _ _ => 0⟩
  dt := .uint8
  writeMask := false
  out := ⟨3, 2, false, none, (1, 2)⟩
  readErr := fun _ => none

example : ∃ im', Sharpened demoSharp (fun _ _ => ⟨fun _ => .nan, false, 0⟩) (.ok im') :=
  C52_completes _ _ (by decide) (fun _ => rfl)

example : demoSharp.im.Valid (0, 1) ∧ ¬ demoSharp.im.Valid (1, 2) := by
  constructor <;> decide +kernel

end Verif.PanSharp
