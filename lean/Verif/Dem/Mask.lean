import Verif.Dem.Model

/-!
# C54 (masking) and C64: `_mask_dem`, and the DEM that is kept between calls of `process`
-/

set_option autoImplicit false
set_option linter.unusedSectionVars false

namespace Verif.Dem
open Verif.Common Verif.Ortho

variable {K : Type} [Field K] [LinearOrder K] [IsStrictOrderedRing K] [FloorRing K]

/-! ## Lemmas -/

theorem mem_maskRows {m : MaskIn K} {r : ℕ} : r ∈ maskRows m ↔ r < m.h ∧ ∃ c < m.w, demMask m r c = true := by
  simp [maskRows, List.mem_filter]

theorem mem_maskCols {m : MaskIn K} {c : ℕ} : c ∈ maskCols m ↔ c < m.w ∧ ∃ r < m.h, demMask m r c = true := by
  simp [maskCols, List.mem_filter]

theorem slice_spec {l : List ℕ} (hs : l.Pairwise (· < ·)) (hne : l ≠ []) :
    (∀ x ∈ l, (sliceOf l).1 ≤ x ∧ x < (sliceOf l).2) ∧ (sliceOf l).1 ∈ l ∧ (sliceOf l).2 - 1 ∈ l ∧
      (sliceOf l).1 < (sliceOf l).2 := by
  cases l with
  | nil => exact absurd rfl hne
  | cons a l =>
    have h1 : (sliceOf (a :: l)).1 = a := rfl
    have h2 : (sliceOf (a :: l)).2 = (a :: l).getLast (by simp) + 1 := by
      simp only [sliceOf, List.getLastD_eq_getLast?, List.getLast?_eq_getLast_of_ne_nil (l := a :: l) (by simp),
        Option.getD_some]
    have hlast : (a :: l).getLast (by simp) ∈ a :: l := List.getLast_mem _
    have hle : ∀ x ∈ a :: l, x ≤ (a :: l).getLast (by simp) := by
      intro x hx
      obtain ⟨i, hi, rfl⟩ := List.getElem_of_mem hx
      rw [List.getLast_eq_getElem]
      rcases Nat.lt_or_ge i ((a :: l).length - 1) with h | h
      · exact (List.pairwise_iff_getElem.1 hs i _ hi (by omega) h).le
      · have : i = (a :: l).length - 1 := by omega
        subst this; exact le_rfl
    have hge : ∀ x ∈ a :: l, a ≤ x := by
      intro x hx
      rcases List.mem_cons.1 hx with rfl | hx
      · exact le_rfl
      · exact (List.rel_of_pairwise_cons hs hx).le
    refine ⟨fun x hx => ?_, ?_, ?_, ?_⟩
    · rw [h1, h2]; exact ⟨hge x hx, by have := hle x hx; omega⟩
    · rw [h1]; simp
    · rw [h2, Nat.add_sub_cancel]; exact hlast
    · rw [h1, h2]; have := hge _ hlast; omega

theorem maskRows_sorted (m : MaskIn K) : (maskRows m).Pairwise (· < ·) := List.pairwise_lt_range.filter _

theorem maskCols_sorted (m : MaskIn K) : (maskCols m).Pairwise (· < ·) := List.pairwise_lt_range.filter _

theorem maskCols_ne {m : MaskIn K} (h : maskRows m ≠ []) : maskCols m ≠ [] := by
  obtain ⟨r, hr⟩ := List.exists_mem_of_ne_nil _ h
  obtain ⟨h1, c, h2, h3⟩ := mem_maskRows.1 hr
  intro h0
  have : c ∈ maskCols m := mem_maskCols.2 ⟨h2, r, h1, h3⟩
  rw [h0] at this
  cases this

/-- The window of the DEM that `_mask_dem` returns. -/
def maskView (m : MaskIn K) (crop : Bool) : (ℕ × ℕ) × (ℕ × ℕ) :=
  (if crop then sliceOf (maskRows m) else (0, m.h), if crop then sliceOf (maskCols m) else (0, m.w))

theorem maskView_spec {m : MaskIn K} (h : maskRows m ≠ []) (crop : Bool) :
    (maskView m crop).1.1 ≤ (maskView m crop).1.2 ∧ (maskView m crop).1.2 ≤ m.h ∧
    (maskView m crop).2.1 ≤ (maskView m crop).2.2 ∧ (maskView m crop).2.2 ≤ m.w ∧
    ∀ r < m.h, ∀ c < m.w, demMask m r c = true → (maskView m crop).1.1 ≤ r ∧ r < (maskView m crop).1.2 ∧
      (maskView m crop).2.1 ≤ c ∧ c < (maskView m crop).2.2 := by
  obtain ⟨a1, a2, a3, a4⟩ := slice_spec (maskRows_sorted m) h
  obtain ⟨b1, b2, b3, b4⟩ := slice_spec (maskCols_sorted m) (maskCols_ne h)
  cases crop with
  | false => simp only [maskView, Bool.false_eq_true, if_false]; exact ⟨by omega, by omega, by omega, by omega,
      fun r hr c hc _ => ⟨by omega, hr, by omega, hc⟩⟩
  | true =>
    simp only [maskView, if_true]
    have q1 := (mem_maskRows.1 a3).1
    have q2 := (mem_maskCols.1 b3).1
    refine ⟨a4.le, by omega, b4.le, by omega, fun r hr c hc hm => ?_⟩
    have c1 := a1 r (mem_maskRows.2 ⟨hr, c, hc, hm⟩)
    have c2 := b1 c (mem_maskCols.2 ⟨hc, r, hr, hm⟩)
    exact ⟨c1.1, c1.2, c2.1, c2.2⟩

/-! ## C54 -/

/-- Pixel (row, column) is in the camera's footprint as `cv2.fillPoly` draws it, and has an elevation. -/
def Kept (m : MaskIn K) (r c : ℕ) : Prop := m.fillPoly (polyJi m) r c = true ∧ m.arr r c ≠ none

theorem demMask_iff (m : MaskIn K) (r c : ℕ) : demMask m r c = true ↔ Kept m r c := by
  unfold demMask Kept
  cases m.arr r c <;> simp

open Classical in
/-- C54: the result of `_mask_dem` is a rectangle of the DEM.  With `mask`, pixels outside the footprint are NaN and
the others keep their elevation; without, all keep it.  All keep their position.  Every pixel of the footprint is in
the rectangle, and with `crop` the rectangle is the smallest such. -/
theorem C54_mask (m : MaskIn K) (crop mask : Bool) (o : MaskOut K) (h : maskDem m crop mask = .ok o) :
    ∃ r0 c0 : ℕ, r0 + o.out.h ≤ m.h ∧ c0 + o.out.w ≤ m.w ∧
      (∀ r < o.out.h, ∀ c < o.out.w, o.out.arr r c =
        if mask = true ∧ ¬ Kept m (r0 + r) (c0 + c) then none else m.arr (r0 + r) (c0 + c)) ∧
      (∀ u v : K, o.out.t.apply u v = m.t.apply (u + c0) (v + r0)) ∧
      (∀ r < m.h, ∀ c < m.w, Kept m r c → r0 ≤ r ∧ r < r0 + o.out.h ∧ c0 ≤ c ∧ c < c0 + o.out.w) ∧
      (crop = true → (∃ c < m.w, Kept m r0 c) ∧ (∃ c < m.w, Kept m (r0 + o.out.h - 1) c) ∧
        (∃ r < m.h, Kept m r c0) ∧ (∃ r < m.h, Kept m r (c0 + o.out.w - 1))) ∧
      (crop = false → r0 = 0 ∧ c0 = 0 ∧ o.out.h = m.h ∧ o.out.w = m.w) := by
  unfold maskDem at h
  by_cases h0 : (maskRows m).isEmpty = true
  · rw [if_pos h0] at h; cases h
  rw [if_neg h0] at h
  have hne : maskRows m ≠ [] := by simpa using h0
  simp only [Except.ok.injEq] at h
  subst h
  obtain ⟨v1, v2, v3, v4, v5⟩ := maskView_spec hne crop
  refine ⟨(maskView m crop).1.1, (maskView m crop).2.1, ?_, ?_, ?_, ?_, ?_, ?_, ?_⟩
  · show (maskView m crop).1.1 + ((maskView m crop).1.2 - (maskView m crop).1.1) ≤ m.h
    omega
  · show (maskView m crop).2.1 + ((maskView m crop).2.2 - (maskView m crop).2.1) ≤ m.w
    omega
  · intro r hr c hc
    have hr' : r < (maskView m crop).1.2 - (maskView m crop).1.1 := hr
    have hc' : c < (maskView m crop).2.2 - (maskView m crop).2.1 := hc
    show (if mask = true ∧ ((maskView m crop).1.1 ≤ (maskView m crop).1.1 + r ∧
        (maskView m crop).1.1 + r < (maskView m crop).1.2 ∧ (maskView m crop).2.1 ≤ (maskView m crop).2.1 + c ∧
        (maskView m crop).2.1 + c < (maskView m crop).2.2) ∧
        demMask m ((maskView m crop).1.1 + r) ((maskView m crop).2.1 + c) = false then none else _) = _
    have e : demMask m ((maskView m crop).1.1 + r) ((maskView m crop).2.1 + c) = false ↔
        ¬ Kept m ((maskView m crop).1.1 + r) ((maskView m crop).2.1 + c) := by
      rw [← demMask_iff]; simp
    refine if_congr ?_ rfl rfl
    constructor
    · rintro ⟨a, -, b⟩; exact ⟨a, e.1 b⟩
    · rintro ⟨a, b⟩; exact ⟨a, ⟨by omega, by omega, by omega, by omega⟩, e.2 b⟩
  · intro u v
    cases crop with
    | false => simp [maskView]
    | true =>
      simp only [maskView, if_true]
      rw [Affine.apply_mul, Affine.apply_translation]
  · intro r hr c hc hk
    have := v5 r hr c hc ((demMask_iff m r c).2 hk)
    show (maskView m crop).1.1 ≤ r ∧ r < (maskView m crop).1.1 + ((maskView m crop).1.2 - (maskView m crop).1.1) ∧
      (maskView m crop).2.1 ≤ c ∧ c < (maskView m crop).2.1 + ((maskView m crop).2.2 - (maskView m crop).2.1)
    omega
  · intro hcrop
    subst hcrop
    obtain ⟨a1, a2, a3, a4⟩ := slice_spec (maskRows_sorted m) hne
    obtain ⟨b1, b2, b3, b4⟩ := slice_spec (maskCols_sorted m) (maskCols_ne hne)
    simp only [maskView, if_true]
    have e1 : (sliceOf (maskRows m)).1 + ((sliceOf (maskRows m)).2 - (sliceOf (maskRows m)).1) - 1 =
        (sliceOf (maskRows m)).2 - 1 := by omega
    have e2 : (sliceOf (maskCols m)).1 + ((sliceOf (maskCols m)).2 - (sliceOf (maskCols m)).1) - 1 =
        (sliceOf (maskCols m)).2 - 1 := by omega
    rw [e1, e2]
    simp only [← demMask_iff]
    exact ⟨(mem_maskRows.1 a2).2, (mem_maskRows.1 a3).2, (mem_maskCols.1 b2).2, (mem_maskCols.1 b3).2⟩
  · intro hcrop
    subst hcrop
    simp [maskView]

/-- C54: `_mask_dem` raises exactly when no pixel of the footprint has an elevation. -/
theorem C54_mask_error (m : MaskIn K) (crop mask : Bool) :
    (∃ e, maskDem m crop mask = .error e) ↔ ∀ r < m.h, ∀ c < m.w, ¬ Kept m r c := by
  have key : maskRows m = [] ↔ ∀ r < m.h, ∀ c < m.w, ¬ Kept m r c := by
    rw [List.eq_nil_iff_forall_not_mem]
    simp only [mem_maskRows, ← demMask_iff]
    constructor
    · intro h r hr c hc hk; exact h r ⟨hr, c, hc, hk⟩
    · rintro h r ⟨hr, c, hc, hk⟩; exact h r hr c hc hk
  rw [← key]
  unfold maskDem
  by_cases h0 : (maskRows m).isEmpty = true
  · rw [if_pos h0]; simpa using h0
  · rw [if_neg h0]
    simp only [List.isEmpty_iff] at h0
    simp [h0]

/-- C54: a warning is given exactly when a pixel that `fillPoly` marks has no elevation or a point of the polygon is
outside the DEM. -/
theorem C54_mask_warning (m : MaskIn K) (crop mask : Bool) (o : MaskOut K) (h : maskDem m crop mask = .ok o) :
    o.warned = true ↔ (∃ r < m.h, ∃ c < m.w, m.fillPoly (polyJi m) r c = true ∧ m.arr r c = none) ∨
      ∃ p ∈ polyJi m, ¬ (0 ≤ p.1 ∧ p.1 < m.w ∧ 0 ≤ p.2 ∧ p.2 < m.h) := by
  unfold maskDem at h
  by_cases h0 : (maskRows m).isEmpty = true
  · rw [if_pos h0] at h; cases h
  rw [if_neg h0] at h
  simp only [Except.ok.injEq] at h
  subst h
  simp only [notCovered, Bool.or_eq_true, List.any_eq_true, List.mem_range, Bool.and_eq_true, Bool.not_eq_true',
    Option.isSome_eq_false_iff, Option.isNone_iff_eq_none, decide_eq_true_eq]
  refine or_congr Iff.rfl ?_
  constructor
  · rintro ⟨p, hp, h⟩; exact ⟨p, hp, by omega⟩
  · rintro ⟨p, hp, h⟩; exact ⟨p, hp, by omega⟩

theorem centre_inv (t : Affine K) (ht : t.det ≠ 0) (u v : K) :
    (t.mul (.translation (1 / 2) (1 / 2))).inv.apply (t.apply u v).1 (t.apply u v).2 = (u - 1 / 2, v - 1 / 2) := by
  have hd : (t.mul (.translation (1 / 2) (1 / 2))).det = t.det := by
    simp [Affine.det, Affine.mul, Affine.translation]
  have h1 := (t.mul (.translation (1 / 2) (1 / 2))).inv_apply_apply (hd ▸ ht) (u - 1 / 2) (v - 1 / 2)
  rw [Affine.apply_mul, Affine.apply_translation] at h1
  simpa using h1

/-- C54: the pixel in which a point of the camera's boundary lies is kept: for a point at location `(u, v)` of the DEM
there is a pixel whose square, with its border, has the point; it is in the result with its elevation, if it is in the
DEM and has one.  `fillPoly` marks the vertices of the polygon (cv2 documentation: the contour is included). -/
theorem C54_vertices (m : MaskIn K) (crop mask : Bool) (o : MaskOut K) (h : maskDem m crop mask = .ok o)
    (ht : m.t.det ≠ 0)
    (hfill : ∀ (l : List (ℤ × ℤ)) (p : ℤ × ℤ), p ∈ l → 0 ≤ p.1 → p.1 < m.w → 0 ≤ p.2 → p.2 < m.h → m.fillPoly l p.2.toNat p.1.toNat = true)
    (u v : K) (hp : m.t.apply u v ∈ m.poly) :
    ∃ i j : ℤ, ((j : K) ≤ u ∧ u ≤ j + 1) ∧ ((i : K) ≤ v ∧ v ≤ i + 1) ∧
      (0 ≤ i → i < m.h → 0 ≤ j → j < m.w → m.arr i.toNat j.toNat ≠ none →
        ∃ r < o.out.h, ∃ c < o.out.w, o.out.arr r c = m.arr i.toNat j.toNat ∧
          o.out.t.apply c r = m.t.apply j i) := by
  have r1 := abs_le.1 (rint_near (u - 1 / 2)).1
  have r2 := abs_le.1 (rint_near (v - 1 / 2)).1
  refine ⟨rint (v - 1 / 2), rint (u - 1 / 2), ⟨by linarith [r1.1, r1.2], by linarith [r1.1, r1.2]⟩,
    ⟨by linarith [r2.1, r2.2], by linarith [r2.1, r2.2]⟩, fun h1 h2 h3 h4 hv => ?_⟩
  have hmem : (rint (u - 1 / 2), rint (v - 1 / 2)) ∈ polyJi m := by
    unfold polyJi
    refine List.mem_map.2 ⟨m.t.apply u v, hp, ?_⟩
    rw [centre_inv _ ht]
  have hk : Kept m (rint (v - 1 / 2)).toNat (rint (u - 1 / 2)).toNat := ⟨hfill _ _ hmem h3 h4 h1 h2, hv⟩
  obtain ⟨r0, c0, -, -, g1, g2, g3, -, -⟩ := C54_mask m crop mask o h
  obtain ⟨q1, q2, q3, q4⟩ := g3 _ (by omega) _ (by omega) hk
  refine ⟨(rint (v - 1 / 2)).toNat - r0, by omega, (rint (u - 1 / 2)).toNat - c0, by omega, ?_, ?_⟩
  · rw [g1 _ (by omega) _ (by omega)]
    rw [Nat.add_sub_cancel' q1, Nat.add_sub_cancel' q3, if_neg (by tauto)]
  · rw [g2, Nat.cast_sub q1, Nat.cast_sub q3, sub_add_cancel, sub_add_cancel]
    have t1 : ((rint (v - 1 / 2)).toNat : K) = (rint (v - 1 / 2) : ℤ) := by
      rw [← Int.cast_natCast, Int.toNat_of_nonneg h1]
    have t2 : ((rint (u - 1 / 2)).toNat : K) = (rint (u - 1 / 2) : ℤ) := by
      rw [← Int.cast_natCast, Int.toNat_of_nonneg h3]
    rw [t1, t2]

/-- A 3 x 4 DEM with one missing elevation; the footprint has rows 1 and 2 of columns 1 and 2. -/
def demoMask : MaskIn ℚ where
  arr r c := if r = 1 ∧ c = 1 then none else some (10 * r + c)
  h := 3
  w := 4
  t := ⟨2, 0, 100, 0, -2, 200⟩
  poly := [(103, 197), (105, 195)]
  fillPoly l r c := decide (l = [(1, 1), (2, 2)] ∧ 1 ≤ r ∧ 1 ≤ c ∧ c ≤ 2)

example : (match maskDem demoMask true true with
    | .ok o => decide ((o.out.h, o.out.w) = (2, 2) ∧ o.out.arr 0 0 = none ∧ o.out.arr 1 1 = some 22 ∧
        o.out.t = ⟨2, 0, 102, 0, -2, 198⟩ ∧ o.warned = true)
    | .error _ => false) = true := by
  decide +kernel

/-! ## C64: the stored DEM -/

/-- Arrays in memory.  Slot `self` is `self._dem_array`; a new slot is used for each new array. -/
structure Mem (K : Type) where
  cell : ℕ → ℕ → ℕ → Pix K
  next : ℕ

/-- A DEM in memory: slot, size and transform. -/
structure DemRef (K : Type) where
  slot : ℕ
  h : ℕ
  w : ℕ
  t : Affine K

/-- One call of `Ortho.process`, its part up to `_mask_dem`: resolution and interpolation arguments, and the
rasterio functions for them.  `orthoSize` is the size of the DEM bounds in the ortho CRS (orthority/ortho.py:249-251);
`reproject` is rasterio's; `poly` the camera's boundary on a DEM. -/
structure Call (K : Type) where
  resolution : K × K
  orthoSize : K × K
  reproject : DemOut K → DemOut K
  poly : DemOut K → List (K × K)
  fillPoly : ℕ → ℕ → List (ℤ × ℤ) → ℕ → ℕ → Bool

/-- The value of a DEM in memory. -/
def DemRef.load (d : DemRef K) (m : Mem K) : DemOut K := ⟨m.cell d.slot, d.h, d.w, d.t⟩

/-- New array in memory. -/
def Mem.alloc (m : Mem K) (o : DemOut K) : DemRef K × Mem K :=
  (⟨m.next, o.h, o.w, o.t⟩, ⟨fun s => if s = m.next then o.arr else m.cell s, m.next + 1⟩)

/-- orthority/ortho.py:234-290 `_reproject_dem`: a copy of the DEM if it has the CRS and resolution of the ortho;
`OrthorityError` for a resolution larger than the DEM bounds; else the reprojected DEM. -/
def reprojectDem (self : DemRef K) (crsEqual : Bool) (c : Call K) (m : Mem K) : Res (DemRef K × Mem K) :=
  if crsEqual = true ∧ c.resolution = (|self.t.a|, |self.t.e|) then .ok (m.alloc (self.load m))
  else if c.orthoSize.1 < c.resolution.1 ∨ c.orthoSize.2 < c.resolution.2 then .error .orthorityError
  else .ok (m.alloc (c.reproject (self.load m)))

/-- The inputs of `_mask_dem` for a DEM in memory. -/
def maskArgs (c : Call K) (o : DemOut K) : MaskIn K := ⟨o.arr, o.h, o.w, o.t, c.poly o, c.fillPoly o.h o.w⟩

/-- orthority/ortho.py:590-596: `_reproject_dem` and `_mask_dem` as `process` calls them.  `_mask_dem` writes NaN
through a view into the array that it is given. -/
def processDem (self : DemRef K) (crsEqual : Bool) (c : Call K) (m : Mem K) : Res (DemOut K) × Mem K :=
  match reprojectDem self crsEqual c m with
  | .error e => (.error e, m)
  | .ok (d, m') =>
    match maskDem (maskArgs c (d.load m')) true true with
    | .error e => (.error e, m')
    | .ok o => (.ok o.out, ⟨fun s => if s = d.slot then o.input else m'.cell s, m'.next⟩)

/-- A sequence of calls. -/
def processAll (self : DemRef K) (crsEqual : Bool) : List (Call K) → Mem K → List (Res (DemOut K)) × Mem K
  | [], m => ([], m)
  | c :: cs, m =>
    let r := processDem self crsEqual c m
    let rs := processAll self crsEqual cs r.2
    (r.1 :: rs.1, rs.2)

/-- C64: `process` leaves the DEM of the `Ortho` object as it was, also when it fails. -/
theorem C64_dem_unchanged (self : DemRef K) (crsEqual : Bool) (c : Call K) (m : Mem K) (hs : self.slot < m.next) :
    self.load (processDem self crsEqual c m).2 = self.load m ∧ m.next ≤ (processDem self crsEqual c m).2.next := by
  unfold processDem
  have key : ∀ d m', reprojectDem self crsEqual c m = .ok (d, m') →
      d.slot = m.next ∧ m'.next = m.next + 1 ∧ m'.cell self.slot = m.cell self.slot := by
    intro d m' h
    have al : ∀ o, (m.alloc o) = (d, m') → d.slot = m.next ∧ m'.next = m.next + 1 ∧
        m'.cell self.slot = m.cell self.slot := by
      intro o h
      simp only [Mem.alloc, Prod.mk.injEq] at h
      obtain ⟨rfl, rfl⟩ := h
      exact ⟨rfl, rfl, if_neg (by omega)⟩
    unfold reprojectDem at h
    split_ifs at h
    · exact al _ (Except.ok.inj h)
    · exact al _ (Except.ok.inj h)
  cases h : reprojectDem self crsEqual c m with
  | error e => exact ⟨rfl, le_rfl⟩
  | ok p =>
    obtain ⟨d, m'⟩ := p
    obtain ⟨h1, h2, h3⟩ := key d m' h
    simp only
    cases h4 : maskDem (maskArgs c (d.load m')) true true with
    | error e => simp only [DemRef.load, h3]; exact ⟨trivial, by omega⟩
    | ok o =>
      simp only [DemRef.load]
      rw [if_neg (by omega), h3]
      exact ⟨rfl, by omega⟩

/-- The DEM that a call makes, as a function of the value of the stored DEM. -/
theorem processDem_eq (self : DemRef K) (crsEqual : Bool) (c : Call K) (m : Mem K) : (processDem self crsEqual c m).1 =
    (if crsEqual = true ∧ c.resolution = (|self.t.a|, |self.t.e|) then
      (maskDem (maskArgs c (self.load m)) true true).map MaskOut.out
    else if c.orthoSize.1 < c.resolution.1 ∨ c.orthoSize.2 < c.resolution.2 then .error .orthorityError
    else (maskDem (maskArgs c (c.reproject (self.load m))) true true).map MaskOut.out) := by
  have al : ∀ (o : DemOut K) (m : Mem K), (m.alloc o).1.load (m.alloc o).2 = o := by
    intro o m
    simp [Mem.alloc, DemRef.load]
  have fin : ∀ o : DemOut K, (match (Except.ok (m.alloc o) : Res (DemRef K × Mem K)) with
      | .error e => ((.error e : Res (DemOut K)), m)
      | .ok (d, m') =>
        match maskDem (maskArgs c (d.load m')) true true with
        | .error e => (.error e, m')
        | .ok o => (.ok o.out, ⟨fun s => if s = d.slot then o.input else m'.cell s, m'.next⟩)).1 =
      (maskDem (maskArgs c o) true true).map MaskOut.out := by
    intro o
    have := al o m
    revert this
    cases m.alloc o with
    | mk d m' =>
      intro this
      simp only at this ⊢
      rw [this]
      cases maskDem (maskArgs c o) true true <;> rfl
  unfold processDem reprojectDem
  split_ifs
  · exact fin _
  · rfl
  · exact fin _

/-- The DEM that a call makes depends on the value of the stored DEM alone. -/
theorem processDem_load (self : DemRef K) (crsEqual : Bool) (c : Call K) (m m' : Mem K)
    (h : self.load m = self.load m') : (processDem self crsEqual c m).1 = (processDem self crsEqual c m').1 := by
  rw [processDem_eq, processDem_eq, h]

/-- The DEM at the resolution of the ortho: the stored DEM if that has the CRS and both resolutions of the ortho, and else the
reprojected one. -/
def DemAt (self : DemRef K) (crsEqual : Bool) (c : Call K) (m : Mem K) (d : DemOut K) : Prop :=
  (crsEqual = true ∧ c.resolution.1 = |self.t.a| ∧ c.resolution.2 = |self.t.e| ∧ d = self.load m) ∨
  (¬ (crsEqual = true ∧ c.resolution.1 = |self.t.a| ∧ c.resolution.2 = |self.t.e|) ∧ d = c.reproject (self.load m))

open Classical in
/-- C64: the DEM behind an ortho is the smallest rectangle of the DEM at the resolution of the ortho that has the camera's
footprint, with NaN outside the footprint, and the elevations and positions of the DEM inside. -/
theorem C64_dem (self : DemRef K) (crsEqual : Bool) (c : Call K) (m : Mem K) (o : DemOut K)
    (h : (processDem self crsEqual c m).1 = .ok o) :
    ∃ d r0 c0, DemAt self crsEqual c m d ∧ r0 + o.h ≤ d.h ∧ c0 + o.w ≤ d.w ∧
      (∀ r < o.h, ∀ k < o.w, o.arr r k = if Kept (maskArgs c d) (r0 + r) (c0 + k) then d.arr (r0 + r) (c0 + k) else none) ∧
      (∀ u v : K, o.t.apply u v = d.t.apply (u + c0) (v + r0)) ∧
      (∀ r < d.h, ∀ k < d.w, Kept (maskArgs c d) r k → r0 ≤ r ∧ r < r0 + o.h ∧ c0 ≤ k ∧ k < c0 + o.w) ∧
      (∃ k < d.w, Kept (maskArgs c d) r0 k) ∧ (∃ k < d.w, Kept (maskArgs c d) (r0 + o.h - 1) k) ∧
      (∃ r < d.h, Kept (maskArgs c d) r c0) ∧ (∃ r < d.h, Kept (maskArgs c d) r (c0 + o.w - 1)) := by
  rw [processDem_eq] at h
  have key : ∀ d : DemOut K, (maskDem (maskArgs c d) true true).map MaskOut.out = .ok o → DemAt self crsEqual c m d →
      ∃ d r0 c0, DemAt self crsEqual c m d ∧ r0 + o.h ≤ d.h ∧ c0 + o.w ≤ d.w ∧
      (∀ r < o.h, ∀ k < o.w, o.arr r k = if Kept (maskArgs c d) (r0 + r) (c0 + k) then d.arr (r0 + r) (c0 + k) else none) ∧
      (∀ u v : K, o.t.apply u v = d.t.apply (u + c0) (v + r0)) ∧
      (∀ r < d.h, ∀ k < d.w, Kept (maskArgs c d) r k → r0 ≤ r ∧ r < r0 + o.h ∧ c0 ≤ k ∧ k < c0 + o.w) ∧
      (∃ k < d.w, Kept (maskArgs c d) r0 k) ∧ (∃ k < d.w, Kept (maskArgs c d) (r0 + o.h - 1) k) ∧
      (∃ r < d.h, Kept (maskArgs c d) r c0) ∧ (∃ r < d.h, Kept (maskArgs c d) r (c0 + o.w - 1)) := by
    intro d hd hat
    cases hm : maskDem (maskArgs c d) true true with
    | error e => rw [hm] at hd; cases hd
    | ok q =>
      rw [hm] at hd
      obtain rfl : q.out = o := Except.ok.inj hd
      obtain ⟨r0, c0, h1, h2, h3, h4, h5, h6, -⟩ := C54_mask _ _ _ _ hm
      refine ⟨d, r0, c0, hat, h1, h2, ?_, h4, h5, h6 rfl⟩
      intro r hr k hk
      rw [h3 r hr k hk]
      by_cases hkp : Kept (maskArgs c d) (r0 + r) (c0 + k)
      · rw [if_neg (fun h => h.2 hkp), if_pos hkp]; rfl
      · rw [if_pos ⟨rfl, hkp⟩, if_neg hkp]
  have hres : c.resolution = (|self.t.a|, |self.t.e|) ↔ c.resolution.1 = |self.t.a| ∧ c.resolution.2 = |self.t.e| := Prod.ext_iff
  split_ifs at h with h1 h2
  · exact key _ h (.inl ⟨h1.1, (hres.1 h1.2).1, (hres.1 h1.2).2, rfl⟩)
  · exact key _ h (.inr ⟨fun h' => h1 ⟨h'.1, hres.2 h'.2⟩, rfl⟩)

/-- C64: no DEM is made, with `OrthorityError`, exactly when the DEM has to be reprojected to a resolution larger than its
bounds, or has no elevation in the camera's footprint. -/
theorem C64_refuses (self : DemRef K) (crsEqual : Bool) (c : Call K) (m : Mem K) :
    ((processDem self crsEqual c m).1 = .error .orthorityError ∨ ∃ o, (processDem self crsEqual c m).1 = .ok o) ∧
    ((processDem self crsEqual c m).1 = .error .orthorityError ↔
      (¬ (crsEqual = true ∧ c.resolution.1 = |self.t.a| ∧ c.resolution.2 = |self.t.e|) ∧
        (c.orthoSize.1 < c.resolution.1 ∨ c.orthoSize.2 < c.resolution.2)) ∨
      ∃ d, DemAt self crsEqual c m d ∧ ∀ r < d.h, ∀ k < d.w, ¬ Kept (maskArgs c d) r k) := by
  rw [processDem_eq]
  have hres : c.resolution = (|self.t.a|, |self.t.e|) ↔ c.resolution.1 = |self.t.a| ∧ c.resolution.2 = |self.t.e| := Prod.ext_iff
  have key : ∀ d : DemOut K, ((maskDem (maskArgs c d) true true).map MaskOut.out = .error .orthorityError ∨
      ∃ o, (maskDem (maskArgs c d) true true).map MaskOut.out = .ok o) ∧
      ((maskDem (maskArgs c d) true true).map MaskOut.out = .error .orthorityError ↔
        ∀ r < d.h, ∀ k < d.w, ¬ Kept (maskArgs c d) r k) := by
    intro d
    have he := C54_mask_error (maskArgs c d) true true
    cases hm : maskDem (maskArgs c d) true true with
    | ok q =>
      rw [hm] at he
      refine ⟨.inr ⟨_, rfl⟩, fun h => (by cases h), fun h => ?_⟩
      obtain ⟨e, h⟩ := he.2 h
      cases h
    | error e =>
      obtain rfl : e = .orthorityError := by
        unfold maskDem at hm
        split at hm
        · exact (Except.error.inj hm).symm
        · cases hm
      rw [hm] at he
      exact ⟨.inl rfl, fun _ => he.1 ⟨_, rfl⟩, fun _ => rfl⟩
  split_ifs with h1 h2
  · refine ⟨(key _).1, (key _).2.trans ⟨fun h => .inr ⟨_, .inl ⟨h1.1, (hres.1 h1.2).1, (hres.1 h1.2).2, rfl⟩, h⟩, ?_⟩⟩
    rintro (⟨h, -⟩ | ⟨d, hd | hd, h⟩)
    · exact absurd ⟨h1.1, hres.1 h1.2⟩ h
    · obtain ⟨-, -, -, rfl⟩ := hd; exact h
    · exact absurd ⟨h1.1, hres.1 h1.2⟩ hd.1
  · exact ⟨.inl rfl, fun _ => .inl ⟨fun h => h1 ⟨h.1, hres.2 h.2⟩, h2⟩, fun _ => rfl⟩
  · refine ⟨(key _).1, (key _).2.trans ⟨fun h => .inr ⟨_, .inr ⟨fun h => h1 ⟨h.1, hres.2 h.2⟩, rfl⟩, h⟩, ?_⟩⟩
    rintro (⟨-, h⟩ | ⟨d, hd | hd, h⟩)
    · exact absurd h h2
    · exact absurd ⟨hd.1, hres.2 ⟨hd.2.1, hd.2.2.1⟩⟩ h1
    · obtain ⟨-, rfl⟩ := hd; exact h

/-- C64: in any sequence of calls of `process`, each call makes the DEM that it would make as the only call. -/
theorem C64_calls_independent (self : DemRef K) (crsEqual : Bool) (cs : List (Call K)) (m : Mem K)
    (hs : self.slot < m.next) :
    (processAll self crsEqual cs m).1 = cs.map fun c => (processDem self crsEqual c m).1 := by
  have gen : ∀ (cs : List (Call K)) (m' : Mem K), self.slot < m'.next → self.load m' = self.load m →
      (processAll self crsEqual cs m').1 = cs.map fun c => (processDem self crsEqual c m).1 := by
    intro cs
    induction cs with
    | nil => intro m' _ _; rfl
    | cons c cs ih =>
      intro m' hs' hl
      have h1 := C64_dem_unchanged self crsEqual c m' hs'
      simp only [processAll, List.map_cons]
      rw [processDem_load self crsEqual c m' m hl, ih _ (lt_of_lt_of_le hs' h1.2) (h1.1.trans hl)]
  exact gen cs m hs rfl

/-- A call that masks a copy of the stored DEM. -/
example : (match (processDem (K := ℚ) ⟨0, 3, 4, ⟨2, 0, 100, 0, -2, 200⟩⟩ true
    ⟨(2, 2), (6, 8), id, fun _ => demoMask.poly, fun _ _ => demoMask.fillPoly⟩ ⟨fun _ => demoMask.arr, 1⟩).1 with
    | .ok o => decide (o.arr 0 0 = none ∧ o.arr 1 1 = some 22)
    | .error _ => false) = true := by
  decide +kernel

end Verif.Dem
