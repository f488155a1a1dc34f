import Verif.Ortho.Lemmas
import Mathlib.Data.Rat.Defs
import Mathlib.Tactic.NormNum

/-!
# C02 - C08: remapping

The theorems quantify over all cameras (`world_to_pixel` and the sampling of `cv2.remap` are parameters),
images, DEMs, transforms, block shapes and interleavings of the worker threads.
-/

set_option autoImplicit false
set_option linter.unusedSectionVars false

namespace Verif.Ortho
open Verif.Tiles

variable {K : Type} [Field K] [DecidableEq K] {Src : Type}

/-! ## C03 -/

/-- C03: the grid a tile worker uses at tile pixel (`r`, `c`) is the ortho transform at the centre of that
pixel in the whole image, for every affine transform (North up or not) and every tile. -/
theorem C03_tile_grid_centres (T : Affine K) (w₀ w : Win) (r c : ℕ) :
    (tileGrids T (initGrids T w₀) w).get r c =
      T.apply (((w.colOff + c : ℕ) : K) + 1 / 2) (((w.rowOff + r : ℕ) : K) + 1 / 2) :=
  tileGrids_get T w r c

/-- C03: the grid has the size of the tile, for all tiles of the ortho image. -/
theorem C03_tile_grid_shape (T : Affine K) (im : ImInfo) (w₀ : Win) (ws : List Win)
    (h : blockWindows im = .ok (w₀ :: ws)) : ∀ w ∈ w₀ :: ws,
      (tileGrids T (initGrids T w₀) w).h = w.height ∧ (tileGrids T (initGrids T w₀) w).w = w.width := by
  intro w hw
  have := C01_first_tile_largest im none w₀ ws h w hw
  simp only [tileGrids, initGrids, Grid.slice]
  omega

/-! ## Runs of the pool -/

theorem batch_frame {p : RemapIn K Src} {w₀ : Win} {ws : List Win} {ix : List ℕ} {im im' : OrthoIm K}
    {H W : ℕ} (ht : Tiling H W ws) (h : Batch p w₀ ws ix im (.ok im')) {b r c : ℕ} (hr : r < H)
    (hc : c < W) (hb : b ∉ ix) : im'.data b r c = im.data b r c := by
  obtain ⟨i, w, hw, hh⟩ := tiling_exists ht hr hc
  obtain ⟨t, -, h2⟩ := batch_ok ht h hw
  rw [(h2 r c hh).1 b]
  simp only [writeData]
  split
  · rw [List.idxOf?_eq_none_iff.2 hb]
  · rfl

theorem batch_value {p : RemapIn K Src} {w₀ : Win} {ws : List Win} {ix : List ℕ} {im im' : OrthoIm K}
    {H W : ℕ} (ht : Tiling H W ws) (hmode : p.mode.dilates p.nodata = false)
    (h : Batch p w₀ ws ix im (.ok im')) {b r c : ℕ} (hr : r < H)
    (hc : c < W) (hb : b ∈ ix) : im'.data b r c = orthoValue p b r c := by
  obtain ⟨i, w, hw, hh⟩ := tiling_exists ht hr hc
  obtain ⟨t, h1, h2⟩ := batch_ok ht h hw
  rw [(h2 r c hh).1 b]
  simp only [writeData]
  have hh' := hh
  unfold Win.Has at hh'
  rw [if_pos hh']
  obtain ⟨k, hk⟩ := Option.isSome_iff_exists.1 (List.isSome_idxOf?.2 hb)
  rw [hk]
  obtain ⟨hlt, hg, -⟩ := List.idxOf?_eq_some_iff.1 hk
  have := computeTile_val hmode h1 k (r - w.rowOff) (c - w.colOff) b
    (by rw [List.getElem?_eq_getElem hlt, hg])
  simp only [this]
  congr 1 <;> omega

theorem batches_value {p : RemapIn K Src} {w₀ : Win} {ws : List Win} {H W : ℕ} (ht : Tiling H W ws)
    (hmode : p.mode.dilates p.nodata = false) {L : List (List ℕ)} {im : OrthoIm K} {res : Res (OrthoIm K)}
    (h : Batches p w₀ ws L im res) : ∀ im', res = .ok im' → ∀ b r c, r < H → c < W →
      ((b ∈ L.flatten → im'.data b r c = orthoValue p b r c) ∧
        (b ∉ L.flatten → im'.data b r c = im.data b r c)) := by
  induction h with
  | nil im => rintro _ ⟨⟩ b r c _ _; simp
  | cons h1 _ ih =>
    intro im' he b r c hr hc
    obtain ⟨ih1, ih2⟩ := ih im' he b r c hr hc
    rename_i ix l im₀ im₁ r₀ _
    constructor
    · intro hb
      by_cases hb2 : b ∈ l.flatten
      · exact ih1 hb2
      · rw [ih2 hb2]
        refine batch_value ht hmode h1 hr hc ?_
        simpa [List.flatten_cons, hb2] using hb
    · intro hb
      simp only [List.flatten_cons, List.mem_append, not_or] at hb
      rw [ih2 hb.2, batch_frame ht h1 hr hc hb.1]
  | stop _ => rintro _ ⟨⟩

theorem mem_indexList {perBand : Bool} {n b : ℕ} : b ∈ (indexList perBand n).flatten ↔ 1 ≤ b ∧ b ≤ n := by
  unfold indexList
  split
  · simp only [List.mem_flatten, List.mem_map, List.mem_range'_1]
    constructor
    · rintro ⟨_, ⟨a, h, rfl⟩, hb⟩
      simp only [List.mem_singleton] at hb
      omega
    · intro h
      exact ⟨[b], ⟨b, by omega, rfl⟩, by simp⟩
  · simp only [List.flatten_cons, List.flatten_nil, List.append_nil, List.mem_range'_1]
    omega

/-! ## C02 -/

/-- C02: for a camera that does not dilate masks, whatever the interleaving of the worker threads and
whatever the file held before, after `_remap` returns every pixel of every band is the source band sampled
at the projection of the pixel centre with the pixel's DEM height (or nodata). -/
theorem C02_ortho_pixels (p : RemapIn K Src) (perBand : Bool) (im im' : OrthoIm K)
    (hmode : p.mode.dilates p.nodata = false) (h : Remap p perBand im (.ok im')) :
    ∀ b r c, 1 ≤ b → b ≤ p.count → r < p.out.height → c < p.out.width →
      im'.data b r c = orthoValue p b r c := by
  intro b r c hb1 hb2 hr hc
  cases h with
  | run hw hb =>
    have ht := C01_tiles_partition _ _ _ hw
    exact (batches_value ht hmode hb im' rfl b r c hr hc).1 (mem_indexList.2 ⟨hb1, hb2⟩)

theorem batch_det {p : RemapIn K Src} {w₀ : Win} {ws : List Win} {ix : List ℕ} {im₁ im₂ a₁ a₂ : OrthoIm K}
    {H W : ℕ} (ht : Tiling H W ws) (h1 : Batch p w₀ ws ix im₁ (.ok a₁)) (h2 : Batch p w₀ ws ix im₂ (.ok a₂))
    (he : ∀ b r c, r < H → c < W → im₁.data b r c = im₂.data b r c ∧ im₁.valid r c = im₂.valid r c) :
    ∀ b r c, r < H → c < W → a₁.data b r c = a₂.data b r c ∧ a₁.valid r c = a₂.valid r c := by
  intro b r c hr hc
  obtain ⟨i, w, hw, hh⟩ := tiling_exists ht hr hc
  obtain ⟨t, g1, g2⟩ := batch_ok ht h1 hw
  obtain ⟨t', g1', g2'⟩ := batch_ok ht h2 hw
  rw [g1] at g1'
  cases g1'
  rw [(g2 r c hh).1 b, (g2' r c hh).1 b, (g2 r c hh).2, (g2' r c hh).2]
  exact ⟨writeData_congr (he b r c hr hc).1, writeMask_congr (he b r c hr hc).2⟩

theorem batches_det {p : RemapIn K Src} {w₀ : Win} {ws : List Win} {H W : ℕ} (ht : Tiling H W ws)
    {L : List (List ℕ)} {im₁ : OrthoIm K} {r₁ : Res (OrthoIm K)} (h1 : Batches p w₀ ws L im₁ r₁) :
    ∀ {im₂ : OrthoIm K} {r₂ : Res (OrthoIm K)}, Batches p w₀ ws L im₂ r₂ →
    (∀ b r c, r < H → c < W → im₁.data b r c = im₂.data b r c ∧ im₁.valid r c = im₂.valid r c) →
    ∀ a₁ a₂, r₁ = .ok a₁ → r₂ = .ok a₂ →
    ∀ b r c, r < H → c < W → a₁.data b r c = a₂.data b r c ∧ a₁.valid r c = a₂.valid r c := by
  induction h1 with
  | nil im =>
    intro im₂ r₂ h2 he
    cases h2
    rintro _ _ ⟨⟩ ⟨⟩
    exact he
  | cons h1 _ ih =>
    intro im₂ r₂ h2 he a₁ a₂ e1 e2
    cases h2 with
    | cons h2 h2' => exact ih h2' (batch_det ht h1 h2 he) a₁ a₂ e1 e2
    | stop _ => cases e2
  | stop _ => rintro _ _ _ _ _ _ ⟨⟩

/-- C02: for any camera, dilating or not, two runs of `_remap` on the same inputs and file end with the
same data and mask, whatever the interleavings. -/
theorem C02_schedule_independent (p : RemapIn K Src) (perBand : Bool) (im im₁ im₂ : OrthoIm K)
    (h₁ : Remap p perBand im (.ok im₁)) (h₂ : Remap p perBand im (.ok im₂)) :
    ∀ b r c, r < p.out.height → c < p.out.width →
      im₁.data b r c = im₂.data b r c ∧ im₁.valid r c = im₂.valid r c := by
  cases h₁ with
  | run hw hb =>
    cases h₂ with
    | run hw' hb' =>
      rw [hw] at hw'
      cases hw'
      exact batches_det (C01_tiles_partition _ _ _ hw) hb hb' (fun _ _ _ _ _ => ⟨rfl, rfl⟩) _ _ rfl rfl

/-- Each side of an image, or of its blocks, is shorter than the 32767 pixels that `cv2.remap` refuses. -/
def SmallTiles (im : ImInfo) : Prop :=
  (im.height < 32767 ∨ (resolveBlock im none).1 < 32767) ∧ (im.width < 32767 ∨ (resolveBlock im none).2 < 32767)

instance (im : ImInfo) : Decidable (SmallTiles im) := inferInstanceAs (Decidable (_ ∧ _))

theorem tiles_compute (p : RemapIn K Src) (hsrc : p.srcH < shrtMax ∧ p.srcW < shrtMax) (hcv : SmallTiles p.out)
    (hdem : p.dem.h = p.out.height ∧ p.dem.w = p.out.width) {w₀ : Win} {ws : List Win}
    (h : blockWindows p.out = .ok (w₀ :: ws)) (ix : List ℕ) :
    ∀ w ∈ w₀ :: ws, ∃ t, computeTile p w₀ ix w = .ok t := by
  intro w hw
  have h1 := C01_first_tile_largest _ _ _ _ h w hw
  have h2 := (C01_tiles_partition _ _ _ h).inside w hw
  unfold SmallTiles at hcv
  exact computeTile_ok hsrc ⟨h1.1, h1.2.1⟩ (by unfold shrtMax; omega) (by omega)

theorem batches_exists {p : RemapIn K Src} {w₀ : Win} {ws : List Win}
    (hc : ∀ ix, ∀ w ∈ ws, ∃ t, computeTile p w₀ ix w = .ok t) (L : List (List ℕ)) :
    ∀ im, ∃ im', Batches p w₀ ws L im (.ok im') := by
  induction L with
  | nil => exact fun im => ⟨im, .nil im⟩
  | cons ix l ih =>
    intro im
    obtain ⟨im₁, h1⟩ := batch_exists (im₀ := im) (hc ix)
    obtain ⟨im₂, h2⟩ := ih im₁
    exact ⟨im₂, .cons h1 h2⟩

/-- C02: with a DEM in the ortho grid, and a source and tiles within OpenCV's size limit, `_remap` can complete,
and no interleaving makes it fail. -/
theorem C02_completes (p : RemapIn K Src) (perBand : Bool) (im : OrthoIm K)
    (hsrc : p.srcH < 32767 ∧ p.srcW < 32767) (hcv : SmallTiles p.out)
    (hdem : p.dem.h = p.out.height ∧ p.dem.w = p.out.width)
    (hblk : 0 < (resolveBlock p.out none).1 ∧ 0 < (resolveBlock p.out none).2)
    (hsize : 0 < p.out.height ∧ 0 < p.out.width) :
    (∃ im', Remap p perBand im (.ok im')) ∧ ∀ e, ¬ Remap p perBand im (.error e) := by
  obtain ⟨ws, hws⟩ := C01_tiles_defined p.out none hblk
  have ht := C01_tiles_partition _ _ _ hws
  cases ws with
  | nil => exact absurd (ht.once 0 hsize.1 0 hsize.2) (by simp)
  | cons w₀ ws =>
    have hc := tiles_compute p hsrc hcv hdem hws
    constructor
    · obtain ⟨im', h⟩ := batches_exists hc (indexList perBand p.count) im
      exact ⟨im', .run hws h⟩
    · intro e h
      cases h with
      | run hw hb =>
        rw [hws] at hw
        cases hw
        have key : ∀ L im r, Batches p w₀ (w₀ :: ws) L im r → ∀ e, r ≠ .error e := by
          intro L im r hb
          induction hb with
          | nil => simp
          | cons _ _ ih => exact ih
          | stop hb =>
            obtain ⟨-, w, hw, e', he'⟩ := batch_error ht hb
            obtain ⟨t, ht'⟩ := hc _ w hw
            rw [he'] at ht'
            cases ht'
        exact key _ _ _ hb e rfl
      | empty h => rw [hws] at h; cases h
      | block h => rw [hws] at h; cases h

/-- C02 does not hold for all sizes that are accepted: with a source image of 32767 pixels in one direction, or tiles that are as long
(striped orthos that are 32767 or more pixels wide), `_remap` ends in `RuntimeError`, whatever the interleaving. -/
theorem C02_size_fails (p : RemapIn K Src) (perBand : Bool) (im : OrthoIm K) (hcount : 0 < p.count)
    (hsrc : p.srcH ≤ 32767 ∧ p.srcW ≤ 32767) (hdem : p.dem.h = p.out.height ∧ p.dem.w = p.out.width)
    (hblk : 0 < (resolveBlock p.out none).1 ∧ 0 < (resolveBlock p.out none).2)
    (hsize : 0 < p.out.height ∧ 0 < p.out.width) (hbig : p.srcH = 32767 ∨ p.srcW = 32767 ∨ ¬ SmallTiles p.out) (r : Res (OrthoIm K))
    (h : Remap p perBand im r) : r = .error .runtimeError := by
  obtain ⟨ws, hws⟩ := C01_tiles_defined p.out none hblk
  have ht := C01_tiles_partition _ _ _ hws
  cases ws with
  | nil => exact absurd (ht.once 0 hsize.1 0 hsize.2) (by simp)
  | cons w₀ ws =>
    -- the first tile
    have h1 := fun w => C01_first_tile_largest _ _ _ _ hws w
    have h2 := ht.inside w₀ List.mem_cons_self
    have hbig0 : p.srcH = 32767 ∨ p.srcW = 32767 ∨ 32767 ≤ w₀.height ∨ 32767 ≤ w₀.width := by
      by_contra hn
      push Not at hn
      obtain ⟨n1, n2, n3, n4⟩ := hn
      refine hbig.elim n1 fun hb => hb.elim n2 fun hb => hb ?_
      obtain ⟨k, w, hw, hh⟩ := tiling_exists ht hsize.1 hsize.2
      have hwm := List.mem_of_getElem? hw
      obtain ⟨i, j, hij⟩ := C01_blocks _ _ _ hws (resolveBlock p.out none).1 (resolveBlock p.out none).2 (by
        rcases hcg : p.out.cog with _ | _ <;> rcases hbs : p.out.blocksize with _ | _ <;> simp [resolveBlock, hcg, hbs]) w hwm
      obtain ⟨-, -, hi, hj⟩ := (hij 0 0).1 hh
      rw [Nat.zero_div] at hi hj
      have hle := h1 w hwm
      unfold Win.Has at hh hij
      constructor
      · by_contra hc
        push Not at hc
        have := (hij 32766 0).2 ⟨by omega, hsize.2, by rw [Nat.div_eq_of_lt (by omega)]; exact hi, by rw [Nat.zero_div]; exact hj⟩
        omega
      · by_contra hc
        push Not at hc
        have := (hij 0 32766).2 ⟨hsize.1, by omega, by rw [Nat.zero_div]; exact hi, by rw [Nat.div_eq_of_lt (by omega)]; exact hj⟩
        omega
    have hfail : ∀ ix ≠ [], computeTile p w₀ ix w₀ = .error .cvError := by
      intro ix hix
      unfold computeTile
      simp only [remap, cameraRemap]
      rw [if_neg (by unfold shrtMax; omega), if_neg (by simp only [tileGrids, Grid.slice, initGrids, not_not, true_and]; omega),
        if_pos ⟨by simpa using hix, by simp only [tileGrids, Grid.slice, initGrids, shrtMax]; omega⟩]
    cases h with
    | run hw hb =>
      rw [hws] at hw
      cases hw
      have hne : ∀ ix ∈ indexList perBand p.count, ix ≠ [] := by
        intro ix hix
        unfold indexList at hix
        split_ifs at hix
        · obtain ⟨i, -, rfl⟩ := List.mem_map.1 hix
          simp
        · rw [List.mem_singleton] at hix
          subst hix
          intro h
          have := congrArg List.length h
          simp at this
          omega
      have hL : indexList perBand p.count ≠ [] := by
        unfold indexList
        split_ifs
        · intro h
          have := congrArg List.length h
          simp at this
          omega
        · simp
      generalize indexList perBand p.count = L at hb hne hL
      cases hb with
      | nil => exact absurd rfl hL
      | cons hb _ =>
        exfalso
        obtain ⟨t, ht', -⟩ := batch_ok ht hb (i := 0) (w := w₀) rfl
        rw [hfail _ (hne _ List.mem_cons_self)] at ht'
        cases ht'
      | stop hb => cases hb; rfl
    | empty h => rw [hws] at h; cases h
    | block h => rw [hws] at h; cases h

/-- C02: at most one worker is inside the locked write section at any time. -/
theorem C02_mutual_exclusion (p : RemapIn K Src) (w₀ : Win) (ws : List Win) (ix : List ℕ) (im : OrthoIm K)
    (H W : ℕ) (ht : Tiling H W ws) (s : Pool K) (h : Steps p w₀ ws ix (Pool.init im) s) (i j : ℕ)
    (hi : (∃ t, s.phase i = .locked t) ∨ ∃ t, s.phase i = .dataDone t)
    (hj : (∃ t, s.phase j = .locked t) ∨ ∃ t, s.phase j = .dataDone t) : i = j := by
  have key : ∀ k, ((∃ t, s.phase k = .locked t) ∨ ∃ t, s.phase k = .dataDone t) → s.lock = some k := by
    intro k hk
    have hlt : k < ws.length := (steps_lock_range h).1 k (by
      rcases hk with ⟨t, hk⟩ | ⟨t, hk⟩ <;> simp [hk])
    have hI := JobInv.steps ht h k _ (List.getElem?_eq_getElem hlt)
    unfold JobInv at hI
    rcases hk with ⟨t, hk⟩ | ⟨t, hk⟩ <;> rw [hk] at hI <;> exact hI.2.2
  have h1 := key i hi
  rw [key j hj] at h1
  exact (Option.some.inj h1).symm

/-- C02: no deadlock.  While a job is unfinished some worker can step. -/
theorem C02_no_deadlock (p : RemapIn K Src) (w₀ : Win) (ws : List Win) (ix : List ℕ) (im : OrthoIm K)
    (H W : ℕ) (ht : Tiling H W ws) (s : Pool K) (h : Steps p w₀ ws ix (Pool.init im) s) (i : ℕ)
    (hi : i < ws.length) (hu : ¬ (s.phase i).finished) : ∃ s', Step p w₀ ws ix s s' := by
  have hg : ∀ k (hk : k < ws.length), ws[k]? = some ws[k] := fun k hk => List.getElem?_eq_getElem hk
  cases hl : s.lock with
  | some k =>
    have hk := (steps_lock_range h).2 k hl
    have hI := JobInv.steps ht h k _ (hg k hk)
    unfold JobInv at hI
    cases hp : s.phase k with
    | locked t => exact ⟨_, .data s k _ t (hg k hk) hp hl⟩
    | dataDone t => exact ⟨_, .mask s k _ t (hg k hk) hp hl⟩
    | pending => rw [hp] at hI; exact absurd hl hI.2
    | computed t => rw [hp] at hI; exact absurd hl hI.2.2
    | done => rw [hp] at hI; exact absurd hl hI.2
    | failed e => rw [hp] at hI; exact absurd hl hI.2.2
  | none =>
    have hI := JobInv.steps ht h i _ (hg i hi)
    unfold JobInv at hI
    cases hp : s.phase i with
    | pending =>
      cases hc : computeTile p w₀ ix ws[i] with
      | ok t => exact ⟨_, .compute s i _ t (hg i hi) hp hc⟩
      | error e => exact ⟨_, .fail s i _ e (hg i hi) hp hc⟩
    | computed t => exact ⟨_, .acquire s i t hp hl⟩
    | locked t => rw [hp, hl] at hI; exact absurd hI.2.2 (by simp)
    | dataDone t => rw [hp, hl] at hI; exact absurd hI.2.2 (by simp)
    | done => rw [hp] at hu; exact absurd trivial hu
    | failed e => rw [hp] at hu; exact absurd trivial hu

/-! ## C04, C05 -/

theorem batch_valid {p : RemapIn K Src} {w₀ : Win} {ws : List Win} {ix : List ℕ} {im im' : OrthoIm K}
    {H W : ℕ} (ht : Tiling H W ws) (hmode : p.mode.dilates p.nodata = false)
    (h : Batch p w₀ ws ix im (.ok im')) {r c : ℕ} (hr : r < H) (hc : c < W) :
    if p.writeMask ∧ (ix = [1] ∨ ix.length = p.count)
      then (im'.valid r c = true ↔ ∃ b ∈ ix, orthoValue p b r c ≠ p.nodata)
      else im'.valid r c = im.valid r c := by
  obtain ⟨i, w, hw, hh⟩ := tiling_exists ht hr hc
  obtain ⟨t, h1, h2⟩ := batch_ok ht h hw
  rw [(h2 r c hh).2]
  have hh' := hh
  unfold Win.Has at hh'
  unfold writeMask
  split
  · simp only
    rw [if_pos hh']
    have := computeTile_mask hmode h1 (r - w.rowOff) (c - w.colOff)
    rw [Bool.not_eq_true', ← Bool.not_eq_true, this]
    have e1 : w.rowOff + (r - w.rowOff) = r := by omega
    have e2 : w.colOff + (c - w.colOff) = c := by omega
    rw [e1, e2]
    push Not
    rfl
  · rfl

/-- C04: band by band and all bands at once give the same data (no dilation). -/
theorem C04_per_band_data (p : RemapIn K Src) (im im' a b : OrthoIm K)
    (hmode : p.mode.dilates p.nodata = false) (ha : Remap p true im (.ok a)) (hb : Remap p false im' (.ok b)) :
    ∀ k r c, 1 ≤ k → k ≤ p.count → r < p.out.height → c < p.out.width → a.data k r c = b.data k r c := by
  intro k r c h1 h2 h3 h4
  rw [C02_ortho_pixels p true im a hmode ha k r c h1 h2 h3 h4,
    C02_ortho_pixels p false im' b hmode hb k r c h1 h2 h3 h4]

/-- C04: the mask written when all bands are processed at once: valid where some band is not nodata. -/
theorem C04_all_bands_mask (p : RemapIn K Src) (im a : OrthoIm K)
    (hmode : p.mode.dilates p.nodata = false) (hmask : p.writeMask = true)
    (ha : Remap p false im (.ok a)) :
    ∀ r c, r < p.out.height → c < p.out.width → (a.valid r c = true ↔ orthoValid p r c) := by
  intro r c hr hc
  cases ha with
  | run hw hb =>
    have ht := C01_tiles_partition _ _ _ hw
    unfold indexList at hb
    simp only [Bool.false_eq_true, if_false] at hb
    cases hb with
    | cons h1 h2 =>
      cases h2
      have := batch_valid ht hmode h1 hr hc
      rw [if_pos ⟨hmask, Or.inr (by simp)⟩] at this
      rw [this, orthoValid]
      simp only [List.mem_range'_1]
      constructor
      · rintro ⟨b, hb, h⟩; exact ⟨b, by omega, by omega, h⟩
      · rintro ⟨b, hb, hb', h⟩; exact ⟨b, by omega, h⟩

theorem batches_valid_keep {p : RemapIn K Src} {w₀ : Win} {ws : List Win} {H W : ℕ} (ht : Tiling H W ws)
    (hmode : p.mode.dilates p.nodata = false) {L : List (List ℕ)} {im : OrthoIm K} {res : Res (OrthoIm K)}
    (h : Batches p w₀ ws L im res) (hL : ∀ ix ∈ L, ix ≠ [1] ∧ ix.length ≠ p.count) :
    ∀ im', res = .ok im' → ∀ r c, r < H → c < W → im'.valid r c = im.valid r c := by
  induction h with
  | nil im => rintro _ ⟨⟩ r c _ _; rfl
  | cons h1 _ ih =>
    intro im' he r c hr hc
    rw [ih (fun ix h => hL ix (List.mem_cons_of_mem _ h)) im' he r c hr hc]
    have := batch_valid ht hmode h1 hr hc
    have hne := hL _ (List.mem_cons_self ..)
    rw [if_neg (by simp [hne.1, hne.2])] at this
    exact this
  | stop _ => rintro _ ⟨⟩

/-- C04: the mask written band by band: valid where band 1 is not nodata, whatever the other bands. -/
theorem C04_per_band_mask (p : RemapIn K Src) (im a : OrthoIm K)
    (hmode : p.mode.dilates p.nodata = false) (hmask : p.writeMask = true) (hcount : 1 ≤ p.count)
    (ha : Remap p true im (.ok a)) :
    ∀ r c, r < p.out.height → c < p.out.width → (a.valid r c = true ↔ orthoValue p 1 r c ≠ p.nodata) := by
  intro r c hr hc
  cases ha with
  | run hw hb =>
    have ht := C01_tiles_partition _ _ _ hw
    unfold indexList at hb
    obtain ⟨n, hn⟩ : ∃ n, p.count = n + 1 := ⟨p.count - 1, by omega⟩
    simp only [if_true] at hb
    rw [hn, List.range'_succ, List.map_cons] at hb
    cases hb with
    | cons h1 h2 =>
      rw [batches_valid_keep ht hmode h2 ?_ a rfl r c hr hc]
      · have := batch_valid ht hmode h1 hr hc
        rw [if_pos ⟨hmask, Or.inl rfl⟩] at this
        rw [this]
        simp
      · intro ix hix
        simp only [List.mem_map, List.mem_range'_1] at hix
        obtain ⟨k, hk, rfl⟩ := hix
        simp only [ne_eq, List.cons.injEq, and_true, List.length_singleton]
        omega

/-- C04 (part): the two masks agree at a pixel exactly when band 1 is nodata there only if all bands are.
Missing for the full property: equality at all pixels, which is false (`C04_mask_fails`). -/
theorem C04_mask_partial (p : RemapIn K Src) (im im' a b : OrthoIm K)
    (hmode : p.mode.dilates p.nodata = false) (hmask : p.writeMask = true) (hcount : 1 ≤ p.count)
    (ha : Remap p true im (.ok a)) (hb : Remap p false im' (.ok b)) :
    ∀ r c, r < p.out.height → c < p.out.width → (a.valid r c = b.valid r c ↔
      (orthoValue p 1 r c = p.nodata → ∀ k, 1 ≤ k → k ≤ p.count → orthoValue p k r c = p.nodata)) := by
  intro r c hr hc
  have h1 := C04_per_band_mask p im a hmode hmask hcount ha r c hr hc
  have h2 := C04_all_bands_mask p im' b hmode hmask hb r c hr hc
  rw [Bool.eq_iff_iff, h1, h2]
  unfold orthoValid
  constructor
  · intro h he k hk1 hk2
    by_contra hne
    exact h.2 ⟨k, hk1, hk2, hne⟩ he
  · intro h
    constructor
    · intro h'; exact ⟨1, le_rfl, hcount, h'⟩
    · rintro ⟨k, hk1, hk2, hne⟩ he
      exact hne (h he k hk1 hk2)

/-- C05: without dilation the data do not depend on the block shape of the ortho file. -/
theorem C05_block_independent (p q : RemapIn K Src) (pb : Bool) (im im' a b : OrthoIm K)
    (hmode : p.mode.dilates p.nodata = false)
    (hpq : q = { p with out := q.out }) (hs : p.out.height = q.out.height ∧ p.out.width = q.out.width)
    (ha : Remap p pb im (.ok a)) (hb : Remap q pb im' (.ok b)) :
    ∀ k r c, 1 ≤ k → k ≤ p.count → r < p.out.height → c < p.out.width → a.data k r c = b.data k r c := by
  intro k r c h1 h2 h3 h4
  have hc : q.count = p.count := by rw [hpq]
  have hm : q.mode.dilates q.nodata = false := by rw [hpq]; exact hmode
  have ho : orthoValue q k r c = orthoValue p k r c := by rw [hpq]; rfl
  rw [C02_ortho_pixels p pb im a hmode ha k r c h1 h2 h3 h4,
    C02_ortho_pixels q pb im' b hm hb k r c h1 (by omega) (by omega) (by omega), ho]

theorem batches_tile {p : RemapIn K Src} {w₀ : Win} {ws : List Win} {H W : ℕ} (ht : Tiling H W ws)
    {L : List (List ℕ)} {im : OrthoIm K} {res : Res (OrthoIm K)}
    (h : Batches p w₀ ws L im res) : ∀ im', res = .ok im' → ∀ ix ∈ L, ∀ k b, ix.idxOf? b = some k →
      (∀ ix' ∈ L, b ∈ ix' → ix' = ix) → ∀ w ∈ ws, ∃ t, computeTile p w₀ ix w = .ok t ∧
      ∀ r c, w.Has r c → im'.data b r c = t.val k (r - w.rowOff) (c - w.colOff) := by
  induction h with
  | nil im => simp
  | @cons ix₀ l im₀ im₁ r₀ h1 h2 ih =>
    intro im' he ix hix k b hk hu w hw
    by_cases hl : ix ∈ l
    · exact ih im' he ix hl k b hk (fun ix' h' => hu ix' (List.mem_cons_of_mem _ h')) w hw
    · have e : ix = ix₀ := by simpa [hl] using hix
      subst e
      obtain ⟨i, hi⟩ := List.mem_iff_getElem?.1 hw
      obtain ⟨t, g1, g2⟩ := batch_ok ht h1 hi
      refine ⟨t, g1, fun r c hrc => ?_⟩
      have hkeep : ∀ {L : List (List ℕ)} {im : OrthoIm K} {res : Res (OrthoIm K)},
          Batches p w₀ ws L im res → (∀ ix' ∈ L, b ∉ ix') → ∀ im', res = .ok im' →
          im'.data b r c = im.data b r c := by
        intro L im res h
        have hin := ht.inside w hw
        have hrc' := hrc
        unfold Win.Has at hrc'
        induction h with
        | nil => rintro _ _ ⟨⟩; rfl
        | cons h1 _ ih =>
          intro hL im' he
          rw [ih (fun ix' h' => hL ix' (List.mem_cons_of_mem _ h')) im' he]
          exact batch_frame ht h1 (by omega) (by omega) (hL _ (List.mem_cons_self ..))
        | stop _ => rintro _ _ ⟨⟩
      rw [hkeep h2 ?_ im' he, (g2 r c hrc).1 b]
      · simp only [writeData]
        have hrc' := hrc
        unfold Win.Has at hrc'
        rw [if_pos hrc', hk]
      · intro ix' h' hb'
        exact hl (hu ix' (List.mem_cons_of_mem _ h') hb' ▸ h')
  | stop _ => rintro _ ⟨⟩

/-- C02: for any camera, dilating or not, after `_remap` every pixel of every band is what `remap` of the
tile of that pixel gives, computed on the band alone (`per_band`) or with all bands. -/
theorem C02_tile_values (p : RemapIn K Src) (perBand : Bool) (im im' : OrthoIm K)
    (h : Remap p perBand im (.ok im')) : ∃ w₀ ws, blockWindows p.out = .ok (w₀ :: ws) ∧
    ∀ b, 1 ≤ b → b ≤ p.count → ∀ w ∈ w₀ :: ws, ∃ t,
      computeTile p w₀ (if perBand then [b] else List.range' 1 p.count) w = .ok t ∧
      ∀ r c, w.Has r c → im'.data b r c =
        t.val (if perBand then 0 else b - 1) (r - w.rowOff) (c - w.colOff) := by
  cases h with
  | @run w₀ ws _ hw hb =>
    refine ⟨w₀, ws, hw, fun b hb1 hb2 w hwm => ?_⟩
    have ht := C01_tiles_partition _ _ _ hw
    cases perBand with
    | true =>
      refine batches_tile ht hb im' rfl [b] ?_ 0 b (by simp) ?_ w hwm
      · simp only [indexList, if_true, List.mem_map, List.mem_range'_1]
        exact ⟨b, by omega, rfl⟩
      · intro ix' h' hb'
        simp only [indexList, if_true, List.mem_map, List.mem_range'_1] at h'
        obtain ⟨a, -, rfl⟩ := h'
        simp only [List.mem_singleton] at hb'
        rw [hb']
    | false =>
      refine batches_tile ht hb im' rfl (List.range' 1 p.count) (by simp [indexList]) (b - 1) b ?_ ?_ w hwm
      · rw [List.idxOf?_eq_some_iff]
        refine ⟨by simp; omega, by simp; omega, fun j hj => ?_⟩
        simp only [List.getElem_range']
        omega
      · intro ix' h' _
        simpa [indexList] using h'

/-! ### Witnesses -/

/-- A camera that maps world (x, y) to the pixel whose centre it is, over a one row image whose bands are
lists of values; the sample is the pixel nearest to `j`. -/
def demoCam : Cam ℚ (List ℚ) where
  w2p x y _ := (x.map (· - 1 / 2), y.map (· - 1 / 2))
  f32 := id
  samp src j _ := if j < 0 then none else (src[j.num.toNat]?).map some

/-- Demo input: `nb` bands on a one row image of two pixels in blocks of `bw` columns; uint8 nodata 0. -/
def demo (bands : List (List ℚ)) (width bw : ℕ) (mode : RemapMode) : RemapIn ℚ (List ℚ) where
  cam := demoCam
  mode := mode
  kernel := (3, 3)
  readBand b := bands.getD (b - 1) []
  srcH := 1
  srcW := width
  count := bands.length
  dem := ⟨1, width, fun _ _ => some 0⟩
  transform := ⟨1, 0, 0, 0, 1, 0⟩
  nodata := some 0
  out := ⟨width, 1, false, none, (1, bw)⟩
  writeMask := true

/-- Mode of an RPC camera, or frame camera with `distort=True`. -/
def plainMode : RemapMode := ⟨true, true, false, false⟩
/-- Mode of a Brown camera with `distort=False` and cubic interpolation. -/
def dilateMode : RemapMode := ⟨true, false, false, false⟩

/-- C04: the masks of the two ways of processing differ on an image with a pixel that is 0 in band 1 and
not in band 2: every band by band run marks it invalid, every all bands run marks it valid. -/
theorem C04_mask_fails : ∃ p : RemapIn ℚ (List ℚ), ∃ im : OrthoIm ℚ,
    (∃ a, Remap p true im (.ok a)) ∧ (∃ b, Remap p false im (.ok b)) ∧
    ∀ a b, Remap p true im (.ok a) → Remap p false im (.ok b) →
      a.valid 0 0 = false ∧ b.valid 0 0 = true := by
  refine ⟨demo [[0, 7], [5, 6]] 2 2 plainMode, ⟨fun _ _ _ => none, fun _ _ => false⟩, ?_, ?_, ?_⟩
  · exact (C02_completes _ true _ (by decide) (by decide) (by decide) (by decide) (by decide)).1
  · exact (C02_completes _ false _ (by decide) (by decide) (by decide) (by decide) (by decide)).1
  · intro a b ha hb
    have h1 := C04_per_band_mask _ _ a (by rfl) rfl (by decide) ha 0 0 (by decide) (by decide)
    have h2 := C04_all_bands_mask _ _ b (by rfl) rfl hb 0 0 (by decide) (by decide)
    constructor
    · rw [← Bool.not_eq_true, h1, not_not]
      decide +kernel
    · rw [h2]
      exact ⟨2, by decide, by decide, by decide +kernel⟩

/-- A run on a one window image, seen at one pixel. -/
theorem demo_value {bands : List (List ℚ)} {width bw : ℕ} {mode : RemapMode} {pb : Bool} {im a : OrthoIm ℚ}
    (h : Remap (demo bands width bw mode) pb im (.ok a)) {b r c : ℕ} {w w₀ : Win} {ws : List Win}
    (hw : blockWindows (demo bands width bw mode).out = .ok (w₀ :: ws)) (hmem : w ∈ w₀ :: ws)
    (hb : 1 ≤ b ∧ b ≤ bands.length) (hin : w.Has r c) (v : Pix ℚ)
    (hv : (computeTile (demo bands width bw mode) w₀
        (if pb then [b] else List.range' 1 bands.length) w).map
        (fun t => t.val (if pb then 0 else b - 1) (r - w.rowOff) (c - w.colOff)) = .ok v) :
    a.data b r c = v := by
  obtain ⟨w₀', ws', hw', h2⟩ := C02_tile_values _ pb im a h
  rw [hw] at hw'
  cases hw'
  obtain ⟨t, ht, h3⟩ := h2 b hb.1 hb.2 w hmem
  rw [h3 r c hin]
  have : (demo bands width bw mode).count = bands.length := rfl
  rw [this] at ht
  rw [ht] at hv
  simpa [Except.map] using hv

/-- C04: with an undistorted Brown camera and cubic interpolation the data differ as well: pixel 1 of band 1
is masked by the dilation around pixel 0 band by band, but not with all bands at once. -/
theorem C04_dilated_data_fails : ∃ p : RemapIn ℚ (List ℚ), ∃ im : OrthoIm ℚ,
    (∃ a, Remap p true im (.ok a)) ∧ (∃ b, Remap p false im (.ok b)) ∧
    ∀ a b, Remap p true im (.ok a) → Remap p false im (.ok b) →
      a.data 1 0 1 = some 0 ∧ b.data 1 0 1 = some 7 := by
  refine ⟨demo [[0, 7], [5, 6]] 2 2 dilateMode, ⟨fun _ _ _ => none, fun _ _ => false⟩, ?_, ?_, ?_⟩
  · exact (C02_completes _ true _ (by decide) (by decide) (by decide) (by decide) (by decide)).1
  · exact (C02_completes _ false _ (by decide) (by decide) (by decide) (by decide) (by decide)).1
  · intro a b ha hb
    constructor
    · exact demo_value ha (w₀ := ⟨0, 0, 2, 1⟩) (ws := []) (w := ⟨0, 0, 2, 1⟩) rfl (by simp) (by decide)
        (by decide) _ (by decide +kernel)
    · exact demo_value hb (w₀ := ⟨0, 0, 2, 1⟩) (ws := []) (w := ⟨0, 0, 2, 1⟩) rfl (by simp) (by decide)
        (by decide) _ (by decide +kernel)

/-- C05: with dilation the data depend on the block shape: the same one band image of two pixels, in one
block of two columns or two blocks of one column, ends with different data, because dilation does not look
across the tile border. -/
theorem C05_dilated_fails : ∃ p q : RemapIn ℚ (List ℚ), ∃ im : OrthoIm ℚ,
    q = { p with out := q.out } ∧ p.out.height = q.out.height ∧ p.out.width = q.out.width ∧
    (∃ a, Remap p false im (.ok a)) ∧ (∃ b, Remap q false im (.ok b)) ∧
    ∀ a b, Remap p false im (.ok a) → Remap q false im (.ok b) →
      a.data 1 0 1 = some 0 ∧ b.data 1 0 1 = some 7 := by
  refine ⟨demo [[0, 7]] 2 2 dilateMode, demo [[0, 7]] 2 1 dilateMode,
    ⟨fun _ _ _ => none, fun _ _ => false⟩, rfl, rfl, rfl, ?_, ?_, ?_⟩
  · exact (C02_completes _ false _ (by decide) (by decide) (by decide) (by decide) (by decide)).1
  · exact (C02_completes _ false _ (by decide) (by decide) (by decide) (by decide) (by decide)).1
  · intro a b ha hb
    constructor
    · exact demo_value ha (w₀ := ⟨0, 0, 2, 1⟩) (ws := []) (w := ⟨0, 0, 2, 1⟩) rfl (by simp) (by decide)
        (by decide) _ (by decide +kernel)
    · exact demo_value hb (w₀ := ⟨0, 0, 1, 1⟩) (ws := [⟨1, 0, 1, 1⟩]) (w := ⟨1, 0, 1, 1⟩) rfl (by simp)
        (by decide) (by decide) _ (by decide +kernel)

/-- The hypotheses of C02 are met by a two band image of five pixels in blocks of two, with a plain camera;
the value found is the source value. -/
example : ∃ p : RemapIn ℚ (List ℚ), ∃ im a, p.mode.dilates p.nodata = false ∧ Remap p true im (.ok a) ∧
    a.data 2 0 4 = some 9 := by
  refine ⟨demo [[1, 2, 3, 4, 5], [5, 6, 7, 8, 9]] 5 2 plainMode, ⟨fun _ _ _ => none, fun _ _ => false⟩, ?_⟩
  obtain ⟨a, ha⟩ := (C02_completes (demo [[1, 2, 3, 4, 5], [5, 6, 7, 8, 9]] 5 2 plainMode) true
    ⟨fun _ _ _ => none, fun _ _ => false⟩ (by decide) (by decide) (by decide) (by decide) (by decide)).1
  refine ⟨a, rfl, ha, ?_⟩
  rw [C02_ortho_pixels _ true _ a rfl ha 2 0 4 (by decide) (by decide) (by decide) (by decide)]
  decide +kernel

/-- `C02_size_fails` for a source image that is 32767 pixels wide, and for an ortho of 40000 x 2 pixels in strips of one row. -/
example (im : OrthoIm ℚ) (r : Res (OrthoIm ℚ)) :
    (Remap { demo [[1, 2, 3, 4, 5]] 5 2 plainMode with srcW := 32767 } true im r → r = .error .runtimeError) ∧
    (Remap { demo [[1, 2, 3, 4, 5]] 5 2 plainMode with dem := ⟨2, 40000, fun _ _ => some 0⟩, out := ⟨40000, 2, false, none, (1, 40000)⟩ } false im r →
      r = .error .runtimeError) :=
  ⟨C02_size_fails _ true im (by decide) (by decide) (by decide) (by decide) (by decide) (.inr (.inl rfl)) r,
    C02_size_fails _ false im (by decide) (by decide) (by decide) (by decide) (by decide) (.inr (.inr (by decide))) r⟩

/-! ## C06, C07, C08: `remap` of one tile -/

/-- C06: a band whose sample at a pixel's projection does not exist (outside the source image) is nodata
there, and a band that has a sample holds it. -/
theorem C06_remap_values (cam : Cam K Src) (im : SrcArray Src) (x y z : Grid (Pix K)) (nodata : Pix K)
    (t : Tile K) (h : cameraRemap cam im x y z nodata = .ok t) (b : ℕ) (src : Src)
    (hb : im.bands[b]? = some src) (r c : ℕ) (ji : Pix K × Pix K)
    (hji : cam.w2p (x.get r c) (y.get r c) (z.get r c) = ji) :
    (cam.samp src (cam.f32 (ji.1.getD (-1))) (cam.f32 (ji.2.getD (-1))) = none → t.val b r c = nodata) ∧
    (∀ v, cam.samp src (cam.f32 (ji.1.getD (-1))) (cam.f32 (ji.2.getD (-1))) = some v → t.val b r c = v) := by
  unfold cameraRemap at h
  split at h
  · cases h
  · split_ifs at h
    · cases h
      simp only [hb, remapPix, hji]
      constructor
      · intro h; rw [h]; rfl
      · intro v h; rw [h]; rfl

/-- C06: the mask is exactly where all bands equal nodata (NaN nodata included). -/
theorem C06_remap_mask (cam : Cam K Src) (im : SrcArray Src) (x y z : Grid (Pix K)) (nodata : Pix K)
    (t : Tile K) (h : cameraRemap cam im x y z nodata = .ok t) (r c : ℕ) :
    t.mask r c = true ↔ ∀ b < im.bands.length, t.val b r c = nodata := by
  unfold cameraRemap at h
  split at h
  · cases h
  · split_ifs at h
    · cases h
      simp only [List.all_eq_true, List.mem_range, nanEquals_iff]

/-- C06: pixels with a NaN coordinate after projection are masked, when OpenCV has no sample at -1. -/
theorem C06_nan_masked (cam : Cam K Src) (im : SrcArray Src) (x y z : Grid (Pix K)) (nodata : Pix K)
    (t : Tile K) (h : cameraRemap cam im x y z nodata = .ok t) (r c : ℕ)
    (hf : cam.f32 (-1) = -1) (hout : ∀ src u, cam.samp src (-1) u = none ∧ cam.samp src u (-1) = none)
    (hnan : (cam.w2p (x.get r c) (y.get r c) (z.get r c)).1 = none ∨
      (cam.w2p (x.get r c) (y.get r c) (z.get r c)).2 = none) :
    t.mask r c = true ∧ ∀ b < im.bands.length, t.val b r c = nodata := by
  have hv : ∀ b < im.bands.length, t.val b r c = nodata := by
    intro b hb
    refine (C06_remap_values cam im x y z nodata t h b _ (List.getElem?_eq_getElem hb) r c _ rfl).1 ?_
    rcases hnan with hn | hn
    · rw [hn, Option.getD_none, hf]; exact (hout _ _).1
    · rw [hn, Option.getD_none, hf]; exact (hout _ _).2
  exact ⟨(C06_remap_mask cam im x y z nodata t h r c).2 hv, hv⟩

/-- C06 (part): if no sample of the image equals nodata, a pixel is masked exactly when no band has a
sample there.  Missing for the full property: images with samples equal to nodata, for which it is false
(`C06_fails`). -/
theorem C06_remap_partial (cam : Cam K Src) (im : SrcArray Src) (x y z : Grid (Pix K)) (nodata : Pix K)
    (t : Tile K) (h : cameraRemap cam im x y z nodata = .ok t) (r c : ℕ) (ji : Pix K × Pix K)
    (hji : cam.w2p (x.get r c) (y.get r c) (z.get r c) = ji)
    (hne : ∀ src ∈ im.bands, ∀ j i, cam.samp src j i ≠ some nodata) :
    t.mask r c = true ↔ ∀ src ∈ im.bands,
      cam.samp src (cam.f32 (ji.1.getD (-1))) (cam.f32 (ji.2.getD (-1))) = none := by
  rw [C06_remap_mask cam im x y z nodata t h]
  constructor
  · intro hall src hs
    obtain ⟨b, hb⟩ := List.mem_iff_getElem?.1 hs
    have hv := C06_remap_values cam im x y z nodata t h b src hb r c ji hji
    cases hsm : cam.samp src (cam.f32 (ji.1.getD (-1))) (cam.f32 (ji.2.getD (-1))) with
    | none => rfl
    | some v =>
      have h1 := hv.2 v hsm
      rw [hall b (List.getElem?_eq_some_iff.1 hb).1] at h1
      rw [← h1] at hsm
      exact absurd hsm (hne src hs _ _)
  · intro hall b hb
    exact (C06_remap_values cam im x y z nodata t h b _ (List.getElem?_eq_getElem hb) r c ji hji).1
      (hall _ (List.getElem_mem hb))

/-- C06: a pixel that received a source value equal to nodata (0 for uint8) is masked. -/
theorem C06_fails : ∃ (im : SrcArray (List ℚ)) (x y z : Grid (Pix ℚ)) (t : Tile ℚ),
    cameraRemap demoCam im x y z (some 0) = .ok t ∧ t.mask 0 0 = true ∧
    ∀ src ∈ im.bands, demoCam.samp src 0 0 = some (some 0) := by
  refine ⟨⟨[[0, 7]], 1, 2⟩, ⟨1, 1, fun _ _ => some (1 / 2)⟩, ⟨1, 1, fun _ _ => some (1 / 2)⟩,
    ⟨1, 1, fun _ _ => some 0⟩, _, rfl, ?_, ?_⟩ <;> decide +kernel

/-- Kernel footprint of `cv2.dilate`: pixel (`r'`, `c'`) counts for pixel (`r`, `c`). -/
def InKernel (kw kh : ℕ) (r c r' c' : ℕ) : Prop :=
  r ≤ r' + kh / 2 ∧ r' + kh / 2 < r + kh ∧ c ≤ c' + kw / 2 ∧ c' + kw / 2 < c + kw

theorem dilate_iff (h w kw kh : ℕ) (m : ℕ → ℕ → Bool) (r c : ℕ) :
    dilate h w kw kh m r c = true ↔
      ∃ r' c', r' < h ∧ c' < w ∧ InKernel kw kh r c r' c' ∧ m r' c' = true := by
  simp only [dilate, List.any_eq_true, List.mem_range, Bool.and_eq_true, decide_eq_true_eq, InKernel]
  constructor
  · rintro ⟨dr, hdr, dc, hdc, h1, h2⟩
    exact ⟨_, _, h1.2.1, h1.2.2.2, by omega, h2⟩
  · rintro ⟨r', c', hr, hc, hk, hm⟩
    refine ⟨r' + kh / 2 - r, by omega, c' + kw / 2 - c, by omega, by omega, ?_⟩
    have e1 : r + (r' + kh / 2 - r) - kh / 2 = r' := by omega
    have e2 : c + (c' + kw / 2 - c) - kw / 2 = c' := by omega
    rw [e1, e2]
    exact hm

/-- C07: dilation keeps masked pixels masked, masks exactly the pixels with a masked pixel under the
kernel, sets every masked pixel to nodata in every band and leaves the other pixels alone. -/
theorem C07_dilation (cam : Cam K Src) (mode : RemapMode) (kernel : ℕ × ℕ) (im : SrcArray Src)
    (x y z : Grid (Pix K)) (nodata : Pix K) (t t' : Tile K)
    (hker : 0 < kernel.1 ∧ 0 < kernel.2)
    (h : cameraRemap cam im x y z nodata = .ok t) (h' : remap cam mode kernel im x y z nodata = .ok t')
    (hd : mode.dilates nodata = true) :
    t'.h = t.h ∧ t'.w = t.w ∧ ∀ r c, r < t.h → c < t.w →
      (t.mask r c = true → t'.mask r c = true) ∧
      (t'.mask r c = true ↔
        ∃ r' c', r' < t.h ∧ c' < t.w ∧ InKernel kernel.1 kernel.2 r c r' c' ∧ t.mask r' c' = true) ∧
      (t'.mask r c = true → ∀ b, t'.val b r c = nodata) ∧
      (t'.mask r c = false → ∀ b, t'.val b r c = t.val b r c) := by
  unfold remap at h'
  rw [h] at h'
  simp only [hd, if_true, Except.ok.injEq] at h'
  subst h'
  refine ⟨rfl, rfl, fun r c hr hc => ⟨?_, dilate_iff _ _ _ _ _ _ _, ?_, ?_⟩⟩
  · intro hm
    refine (dilate_iff _ _ _ _ _ _ _).2 ⟨r, c, hr, hc, ?_, hm⟩
    unfold InKernel
    omega
  · intro hm b
    simp only at hm ⊢
    rw [if_pos hm]
  · intro hm b
    simp only at hm ⊢
    rw [hm]
    rfl

/-- C07: a camera that does not dilate returns `Camera.remap`'s result. -/
theorem C07_no_dilation (cam : Cam K Src) (mode : RemapMode) (kernel : ℕ × ℕ) (im : SrcArray Src)
    (x y z : Grid (Pix K)) (nodata : Pix K) (hd : mode.dilates nodata = false) :
    remap cam mode kernel im x y z nodata = cameraRemap cam im x y z nodata := by
  unfold remap
  rw [hd]
  cases cameraRemap cam im x y z nodata <;> rfl

/-- C07: `remap` dilates exactly for a frame camera other than a pinhole one, that undistorts its images,
with an interpolation other than nearest and a `nodata` other than NaN. -/
theorem C07_when (mode : RemapMode) (nodata : Pix K) :
    mode.dilates nodata = true ↔ mode.frame = true ∧ mode.distort = false ∧ mode.nearest = false ∧
      nodata ≠ none ∧ mode.pinhole = false := by
  unfold RemapMode.dilates
  cases nodata <;> cases mode.frame <;> cases mode.distort <;> cases mode.nearest <;>
    cases mode.pinhole <;> simp

/-- C07: RPC cameras, pinhole cameras, cameras with `distort=True`, nearest interpolation and NaN nodata
give `Camera.remap`'s result for every kernel. -/
theorem C07_never (cam : Cam K Src) (mode : RemapMode) (kernel : ℕ × ℕ) (im : SrcArray Src)
    (x y z : Grid (Pix K)) (nodata : Pix K)
    (h : mode.frame = false ∨ mode.pinhole = true ∨ mode.distort = true ∨ mode.nearest = true ∨
      nodata = none) :
    remap cam mode kernel im x y z nodata = cameraRemap cam im x y z nodata := by
  refine C07_no_dilation _ _ _ _ _ _ _ _ ?_
  by_contra hd
  rw [Bool.not_eq_false] at hd
  obtain ⟨h1, h2, h3, h4, h5⟩ := (C07_when _ _).1 hd
  rcases h with h | h | h | h | h
  · rw [h] at h1; cases h1
  · rw [h] at h5; cases h5
  · rw [h] at h2; cases h2
  · rw [h] at h3; cases h3
  · exact h4 h

example : (⟨false, false, false, false⟩ : RemapMode).frame = false := rfl

/-- The hypotheses of C07 are met with a 3 x 3 kernel on a one row image: one masked pixel masks its two
neighbours. -/
example : ∃ t t' : Tile ℚ,
    cameraRemap demoCam ⟨[[3, 0, 7, 8]], 1, 4⟩ ⟨1, 4, fun _ c => some (c + 1 / 2)⟩ ⟨1, 4, fun _ _ => some 0⟩
      ⟨1, 4, fun _ _ => some 0⟩ (some 0) = .ok t ∧
    remap demoCam dilateMode (3, 3) ⟨[[3, 0, 7, 8]], 1, 4⟩ ⟨1, 4, fun _ c => some (c + 1 / 2)⟩
      ⟨1, 4, fun _ _ => some 0⟩ ⟨1, 4, fun _ _ => some 0⟩ (some 0) = .ok t' ∧
    dilateMode.dilates (some (0 : ℚ)) = true ∧
    t.mask 0 0 = false ∧ t'.mask 0 0 = true ∧ t'.mask 0 2 = true ∧ t'.mask 0 3 = false :=
  ⟨_, _, rfl, rfl, rfl, by decide +kernel⟩

/-- C08: `remap` without `nodata` raises `KeyError` for every camera, image and interpolation. -/
theorem C08_default_nodata_fails (cam : Cam K Src) (mode : RemapMode) (kernel : ℕ × ℕ) (im : SrcArray Src)
    (x y z : Grid (Pix K)) (hsrc : im.h ≤ 32767 ∧ im.w ≤ 32767)
    (hs : x.h = y.h ∧ x.w = y.w ∧ y.h = z.h ∧ y.w = z.w) :
    remapCall cam mode kernel im x y z nodataByDtypeObject none = .error .keyError := by
  unfold remapCall shrtMax
  simp only [hs]
  rw [if_neg (by omega), if_neg (by simp)]
  rfl

/-- C08: even if the lookup by data type worked, an undistorted frame camera with an interpolation other
than nearest would raise `TypeError`, as NaN is tested on the `None` argument. -/
theorem C08_default_nodata_undistorted_fails (cam : Cam K Src) (mode : RemapMode) (kernel : ℕ × ℕ)
    (im : SrcArray Src) (x y z : Grid (Pix K)) (nd : Pix K) (hsrc : im.h < 32767 ∧ im.w < 32767)
    (hx : x.h < 32767 ∧ x.w < 32767) (hs : x.h = y.h ∧ x.w = y.w ∧ y.h = z.h ∧ y.w = z.w)
    (hm : mode.frame = true ∧ mode.distort = false ∧ mode.nearest = false) :
    remapCall cam mode kernel im x y z (.ok nd) none = .error .typeError := by
  unfold remapCall cameraRemap shrtMax
  rw [if_neg (by omega), if_neg (by simp [hs])]
  simp only
  rw [if_neg (by omega), if_neg (by simp [hs]), if_neg (by omega)]
  simp [hm]

/-- C08 (part): with a working lookup and a camera that need not undistort, leaving `nodata` out is the same
as passing the looked up value.  Missing: the lookup works for no data type, see above. -/
theorem C08_default_nodata_partial (cam : Cam K Src) (mode : RemapMode) (kernel : ℕ × ℕ)
    (im : SrcArray Src) (x y z : Grid (Pix K)) (nd : Pix K)
    (hm : (mode.frame && !mode.distort && !mode.nearest) = false) :
    remapCall cam mode kernel im x y z (.ok nd) none = remapCall cam mode kernel im x y z (.ok nd) (some nd) := by
  have hd : mode.dilates nd = false := by
    unfold RemapMode.dilates
    rw [hm]; rfl
  unfold remapCall
  simp only [C07_no_dilation _ _ _ _ _ _ _ _ hd]
  unfold cameraRemap
  split
  · rfl
  · split
    · rfl
    · by_cases hc : im.bands ≠ [] ∧ (shrtMax ≤ im.h ∨ shrtMax ≤ im.w ∨ shrtMax ≤ x.h ∨ shrtMax ≤ x.w)
      · simp only [if_pos hc]
      · simp only [if_neg hc, hm, Bool.false_eq_true, if_false]

/-- C08: a source image with a side over 32767 pixels, or coordinate arrays with different shapes, are
refused with `ValueError` for every `nodata`; otherwise `remap` with `nodata` succeeds, unless the image or the coordinate arrays have a
side of 32767 or more pixels, which end in `cv2.error`. -/
theorem C08_validation (cam : Cam K Src) (mode : RemapMode) (kernel : ℕ × ℕ) (im : SrcArray Src)
    (x y z : Grid (Pix K)) (lk : Res (Pix K)) (nodata : Option (Pix K)) :
    ((32767 < im.h ∨ 32767 < im.w ∨ (x.h, x.w) ≠ (y.h, y.w) ∨ (x.h, x.w) ≠ (z.h, z.w)) →
      remapCall cam mode kernel im x y z lk nodata = .error .valueError) ∧
    (∀ nd, nodata = some nd → im.h ≤ 32767 → im.w ≤ 32767 → (x.h, x.w) = (y.h, y.w) →
      (x.h, x.w) = (z.h, z.w) → im.bands ≠ [] → (im.h = 32767 ∨ im.w = 32767 ∨ 32767 ≤ x.h ∨ 32767 ≤ x.w) →
      remapCall cam mode kernel im x y z lk nodata = .error .cvError) ∧
    (∀ nd, nodata = some nd → im.h < 32767 → im.w < 32767 → (x.h, x.w) = (y.h, y.w) →
      (x.h, x.w) = (z.h, z.w) → x.h < 32767 → x.w < 32767 →
      ∃ t, remapCall cam mode kernel im x y z lk nodata = .ok t ∧ t.h = x.h ∧ t.w = x.w ∧
        t.nb = im.bands.length) := by
  simp only [ne_eq, Prod.mk.injEq]
  refine ⟨?_, ?_, ?_⟩
  · intro h
    have hc : (32767 < im.h ∨ 32767 < im.w) ∨
        ¬ (x.h = y.h ∧ x.w = y.w ∧ y.h = z.h ∧ y.w = z.w) := by omega
    have hr : ∀ nd, cameraRemap cam im x y z nd = .error .valueError := by
      intro nd
      unfold cameraRemap shrtMax
      by_cases h1 : im.h > 32767 ∨ im.w > 32767
      · rw [if_pos h1]
      · rw [if_neg h1, if_pos (by omega)]
    unfold remapCall
    cases nodata with
    | some nd => simp only [remap, hr]
    | none =>
      unfold shrtMax
      by_cases h1 : im.h > 32767 ∨ im.w > 32767
      · simp only [if_pos h1]
      · simp only [if_neg h1]
        rw [if_pos (by omega)]
  · rintro nd rfl h1 h2 h3 h4 h5 h6
    have hr : cameraRemap cam im x y z nd = .error .cvError := by
      unfold cameraRemap shrtMax
      rw [if_neg (by omega), if_neg (by omega), if_pos ⟨h5, by omega⟩]
    simp only [remapCall, remap, hr]
  · rintro nd rfl h1 h2 h3 h4 h5' h6'
    have hr : ∃ t, cameraRemap cam im x y z nd = .ok t ∧ t.h = x.h ∧ t.w = x.w ∧
        t.nb = im.bands.length := by
      unfold cameraRemap shrtMax
      rw [if_neg (by omega), if_neg (by omega), if_neg (by omega)]
      exact ⟨_, rfl, rfl, rfl, rfl⟩
    obtain ⟨t, ht, h5, h6, h7⟩ := hr
    unfold remapCall remap
    simp only [ht]
    split
    · exact ⟨_, rfl, h5, h6, h7⟩
    · exact ⟨_, rfl, h5, h6, h7⟩

example : remapCall demoCam plainMode (3, 3) ⟨[[3, 0]], 1, 32768⟩ ⟨1, 2, fun _ c => some (c + 1 / 2)⟩
    ⟨1, 2, fun _ _ => some 0⟩ ⟨1, 2, fun _ _ => some 0⟩ (.ok (some 0)) (some (some 0)) =
      .error .valueError :=
  (C08_validation _ _ _ _ _ _ _ _ _).1 (by decide)

example : remapCall demoCam plainMode (3, 3) ⟨[[3, 0]], 1, 2⟩ ⟨1, 2, fun _ c => some (c + 1 / 2)⟩
    ⟨1, 2, fun _ _ => some 0⟩ ⟨1, 2, fun _ _ => some 0⟩ nodataByDtypeObject none = .error .keyError :=
  C08_default_nodata_fails _ _ _ _ _ _ _ (by decide) (by decide)

end Verif.Ortho
