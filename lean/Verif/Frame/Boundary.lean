import Verif.Common.Model
import Verif.Base.Nan
import Verif.Frame.Pinhole
import Mathlib.Topology.Order.IntermediateValue
import Mathlib.Topology.Instances.Real.Lemmas

/-!
# Image and world boundaries (C41, C42)
-/

set_option autoImplicit false
set_option linter.unusedSectionVars false

namespace Verif.Frame

open Res (ok_bind error_bind)
open Verif.Common (rint)

section Pixel

variable {K : Type} [Field K] [LinearOrder K] [IsStrictOrderedRing K] [FloorRing K]

/-- `np.linspace(a, b, m, endpoint=False)` for points, orthority/camera.py:222-228.  A negative number of points raises
`ValueError`. -/
def linspaceOpen (a b : K × K) (m : ℤ) : Res (List (K × K)) :=
  if m < 0 then .error .valueError else
  .ok ((List.range m.toNat).map fun k : ℕ =>
    (a.1 + (k : K) * ((b.1 - a.1) / (m : K)), a.2 + (k : K) * ((b.2 - a.2) / (m : K))))

/-- The number of points on a side with length `d`, orthority/camera.py:225. -/
def sidePts (num : ℤ) (d perim : K) : ℤ := rint ((num : K) * d / perim)

/-- orthority/camera.py:214-231 `rect_boundary`.  `w` and `h` are `im_size - 1`.  For a zero perimeter the number of points is
NaN, converted to a large negative integer. -/
def rectBoundary (w h : K) (num : ℤ) : Res (List (K × K)) := do
  let perim := 2 * (w + h)
  if perim = 0 then .error .valueError else do
  let a ← linspaceOpen (0, 0) (w, 0) (sidePts num |w| perim)
  let b ← linspaceOpen (w, 0) (w, h) (sidePts num |h| perim)
  let c ← linspaceOpen (w, h) (0, h) (sidePts num |w| perim)
  let d ← linspaceOpen (0, h) (0, 0) (sidePts num |h| perim)
  pure (a ++ b ++ c ++ d)

/-- orthority/camera.py:200-243 `Camera.pixel_boundary`. -/
def pixelBoundary (im : ℕ × ℕ) (num : Option ℤ) : Res (List (K × K)) :=
  let w : K := (im.1 : K) - 1
  let h : K := (im.2 : K) - 1
  let n := num.getD 0
  if n = 0 then
    .ok [(0, 0), (w / 2, 0), (w, 0), (w, h / 2), (w, h), (w / 2, h), (0, h), (0, h / 2)]
  else rectBoundary w h n

/-- The points on the border of the rectangle from the centre of the first pixel to the centre of the last. -/
def OnBorder (w h : K) (p : K × K) : Prop :=
  (0 ≤ p.1 ∧ p.1 ≤ w ∧ 0 ≤ p.2 ∧ p.2 ≤ h) ∧ (p.1 = 0 ∨ p.1 = w ∨ p.2 = 0 ∨ p.2 = h)

theorem linspaceOpen_mem {a b : K × K} {m : ℤ} {l : List (K × K)} (h : linspaceOpen a b m = .ok l) :
    0 ≤ m ∧ (l.length : ℤ) = m ∧ ∀ p ∈ l, ∃ t : K, 0 ≤ t ∧ t < 1 ∧ p = (a.1 + t * (b.1 - a.1), a.2 + t * (b.2 - a.2)) := by
  unfold linspaceOpen at h
  by_cases hm : m < 0
  · rw [if_pos hm] at h; cases h
  rw [if_neg hm] at h
  injection h with h
  subst h
  refine ⟨by omega, by simp; omega, ?_⟩
  intro p hp
  obtain ⟨k, hk, rfl⟩ := List.mem_map.1 hp
  rw [List.mem_range] at hk
  have hkm : (k : ℤ) < m := by omega
  have hkm' : (k : K) < (m : K) := by exact_mod_cast hkm
  have hk0 : (0 : K) ≤ k := Nat.cast_nonneg k
  have hmpos : (0 : K) < m := lt_of_le_of_lt hk0 hkm'
  refine ⟨(k : K) / m, div_nonneg hk0 hmpos.le, (div_lt_one hmpos).2 hkm', ?_⟩
  apply Prod.ext <;> simp <;> ring

theorem rectBoundary_ok {w h : K} {n : ℤ} {l : List (K × K)} (hl : rectBoundary w h n = .ok l) :
    2 * (w + h) ≠ 0 ∧ ∃ a b c d, linspaceOpen (0, 0) (w, 0) (sidePts n |w| (2 * (w + h))) = .ok a ∧
      linspaceOpen (w, 0) (w, h) (sidePts n |h| (2 * (w + h))) = .ok b ∧
      linspaceOpen (w, h) (0, h) (sidePts n |w| (2 * (w + h))) = .ok c ∧
      linspaceOpen (0, h) (0, 0) (sidePts n |h| (2 * (w + h))) = .ok d ∧ l = a ++ b ++ c ++ d := by
  unfold rectBoundary at hl
  simp only at hl
  by_cases hp : 2 * (w + h) = 0
  · rw [if_pos hp] at hl; cases hl
  rw [if_neg hp] at hl
  refine ⟨hp, ?_⟩
  cases ha : linspaceOpen (0, 0) (w, 0) (sidePts n |w| (2 * (w + h))) with
  | error e => rw [ha] at hl; cases hl
  | ok a =>
  cases hb : linspaceOpen (w, 0) (w, h) (sidePts n |h| (2 * (w + h))) with
  | error e => rw [ha, hb] at hl; cases hl
  | ok b =>
  cases hc : linspaceOpen (w, h) (0, h) (sidePts n |w| (2 * (w + h))) with
  | error e => rw [ha, hb, hc] at hl; cases hl
  | ok c =>
  cases hd : linspaceOpen (0, h) (0, 0) (sidePts n |h| (2 * (w + h))) with
  | error e => rw [ha, hb, hc, hd] at hl; cases hl
  | ok d =>
    rw [ha, hb, hc, hd] at hl
    injection hl with hl
    exact ⟨a, b, c, d, rfl, rfl, rfl, rfl, hl.symm⟩

/-- C42: all points of `pixel_boundary` lie on the border of the image. -/
theorem C42_on_border (im : ℕ × ℕ) (hw : 0 < im.1) (hh : 0 < im.2) (num : Option ℤ) (l : List (K × K))
    (hl : pixelBoundary im num = .ok l) : ∀ p ∈ l, OnBorder ((im.1 : K) - 1) ((im.2 : K) - 1) p := by
  have hw' : (0 : K) ≤ (im.1 : K) - 1 := by
    have : (1 : K) ≤ im.1 := by exact_mod_cast hw
    linarith
  have hh' : (0 : K) ≤ (im.2 : K) - 1 := by
    have : (1 : K) ≤ im.2 := by exact_mod_cast hh
    linarith
  unfold pixelBoundary at hl
  generalize (im.1 : K) - 1 = w at *
  generalize (im.2 : K) - 1 = h at *
  simp only at hl
  by_cases hn : num.getD 0 = 0
  · rw [if_pos hn] at hl
    injection hl with hl
    subst hl
    intro p hp
    simp only [List.mem_cons, List.not_mem_nil, or_false] at hp
    rcases hp with rfl | rfl | rfl | rfl | rfl | rfl | rfl | rfl <;>
      (refine ⟨⟨?_, ?_, ?_, ?_⟩, ?_⟩ <;> simp <;> linarith)
  · rw [if_neg hn] at hl
    obtain ⟨-, a, b, c, d, ha, hb, hc, hd, rfl⟩ := rectBoundary_ok hl
    intro p hp
    simp only [List.mem_append] at hp
    rcases hp with ((hp | hp) | hp) | hp
    · obtain ⟨t, t0, t1, rfl⟩ := (linspaceOpen_mem ha).2.2 p hp
      refine ⟨⟨?_, ?_, ?_, ?_⟩, .inr (.inr (.inl ?_))⟩ <;> simp <;> nlinarith
    · obtain ⟨t, t0, t1, rfl⟩ := (linspaceOpen_mem hb).2.2 p hp
      refine ⟨⟨?_, ?_, ?_, ?_⟩, .inr (.inl ?_)⟩ <;> simp <;> nlinarith
    · obtain ⟨t, t0, t1, rfl⟩ := (linspaceOpen_mem hc).2.2 p hp
      refine ⟨⟨?_, ?_, ?_, ?_⟩, .inr (.inr (.inr ?_))⟩ <;> simp <;> nlinarith
    · obtain ⟨t, t0, t1, rfl⟩ := (linspaceOpen_mem hd).2.2 p hp
      refine ⟨⟨?_, ?_, ?_, ?_⟩, .inl ?_⟩ <;> simp <;> nlinarith

/-- C42: by default there are eight points, among them the corners and the mid points of the sides. -/
theorem C42_default (im : ℕ × ℕ) (num : Option ℤ) (h0 : num = none ∨ num = some 0) :
    ∃ l : List (K × K), pixelBoundary im num = .ok l ∧ l.length = 8 ∧
      ∀ x y : K, (x = 0 ∨ x = ((im.1 : K) - 1) / 2 ∨ x = (im.1 : K) - 1) →
        (y = 0 ∨ y = ((im.2 : K) - 1) / 2 ∨ y = (im.2 : K) - 1) →
        ¬ (x = ((im.1 : K) - 1) / 2 ∧ y = ((im.2 : K) - 1) / 2) → (x, y) ∈ l := by
  have hn : num.getD 0 = 0 := by rcases h0 with rfl | rfl <;> rfl
  refine ⟨_, by unfold pixelBoundary; rw [if_pos hn], rfl, ?_⟩
  rintro x y (rfl | rfl | rfl) (rfl | rfl | rfl) h <;> simp at h ⊢

theorem rint_bounds (x : K) : x - 1 / 2 ≤ (rint x : K) ∧ (rint x : K) ≤ x + 1 / 2 := by
  have h1 := Int.floor_add_fract x
  have h2 := Int.fract_nonneg x
  have h3 := Int.fract_lt_one x
  unfold rint
  split_ifs <;> push_cast <;> constructor <;> linarith

/-- Number of points, for an image with more than one pixel. -/
theorem length_pixelBoundary (im : ℕ × ℕ) (hw : 0 < im.1) (hh : 0 < im.2) (n : ℤ) (hn : n ≠ 0) (l : List (K × K))
    (hl : pixelBoundary im (some n) = .ok l) :
    (0 : K) < 2 * (((im.1 : K) - 1) + ((im.2 : K) - 1)) ∧
    (l.length : ℤ) = 2 * (sidePts n ((im.1 : K) - 1) (2 * (((im.1 : K) - 1) + ((im.2 : K) - 1))) +
      sidePts n ((im.2 : K) - 1) (2 * (((im.1 : K) - 1) + ((im.2 : K) - 1)))) := by
  have hw' : (0 : K) ≤ (im.1 : K) - 1 := by
    have : (1 : K) ≤ im.1 := by exact_mod_cast hw
    linarith
  have hh' : (0 : K) ≤ (im.2 : K) - 1 := by
    have : (1 : K) ≤ im.2 := by exact_mod_cast hh
    linarith
  unfold pixelBoundary at hl
  generalize (im.1 : K) - 1 = w at *
  generalize (im.2 : K) - 1 = h at *
  have hg : (some n).getD 0 = n := rfl
  simp only [hg, if_neg hn] at hl
  obtain ⟨hp, a, b, c, d, ha, hb, hc, hd, rfl⟩ := rectBoundary_ok hl
  rw [abs_of_nonneg hw'] at ha hc
  rw [abs_of_nonneg hh'] at hb hd
  refine ⟨lt_of_le_of_ne (by linarith) hp.symm, ?_⟩
  simp only [List.length_append]
  push_cast
  rw [(linspaceOpen_mem ha).2.1, (linspaceOpen_mem hb).2.1, (linspaceOpen_mem hc).2.1, (linspaceOpen_mem hd).2.1]
  ring

/-- C42, the part that holds: the number of points differs from `num_pts` by at most two.  Missing: `num_pts` points exactly
(`C42_odd_fails`). -/
theorem C42_count_partial (im : ℕ × ℕ) (hw : 0 < im.1) (hh : 0 < im.2) (n : ℤ) (hn : n ≠ 0) (l : List (K × K))
    (hl : pixelBoundary im (some n) = .ok l) : |(l.length : ℤ) - n| ≤ 2 := by
  obtain ⟨hpos, hlen⟩ := length_pixelBoundary im hw hh n hn l hl
  generalize (im.1 : K) - 1 = w at *
  generalize (im.2 : K) - 1 = h at *
  have h1 := rint_bounds ((n : K) * w / (2 * (w + h)))
  have h2 := rint_bounds ((n : K) * h / (2 * (w + h)))
  have hs : (n : K) * w / (2 * (w + h)) + (n : K) * h / (2 * (w + h)) = n / 2 := by
    rw [← add_div, ← mul_add]
    have hwh : w + h ≠ 0 := by intro h0; rw [h0] at hpos; simp at hpos
    field_simp
  have hK : ((l.length : ℤ) : K) = 2 * ((rint ((n : K) * w / (2 * (w + h))) : K) + (rint ((n : K) * h / (2 * (w + h))) : K)) := by
    rw [hlen]; push_cast; rfl
  have ha : -2 ≤ ((l.length : ℤ) : K) - n := by rw [hK]; linarith
  have hb : ((l.length : ℤ) : K) - n ≤ 2 := by rw [hK]; linarith
  rw [abs_le]
  constructor
  · exact_mod_cast ha
  · exact_mod_cast hb

/-- C42: an odd number of points is never returned. -/
theorem C42_odd_fails (im : ℕ × ℕ) (hw : 0 < im.1) (hh : 0 < im.2) (n : ℤ) (hn : Odd n) (l : List (K × K))
    (hl : pixelBoundary im (some n) = .ok l) : (l.length : ℤ) ≠ n := by
  intro h
  have h0 : n ≠ 0 := by rintro rfl; simp at hn
  obtain ⟨-, hlen⟩ := length_pixelBoundary im hw hh n h0 l hl
  rw [h] at hlen
  obtain ⟨k, hk⟩ := hn
  omega

/-- C42: an even number of points is not always returned: two points asked for a square image give none. -/
theorem C42_even_fails : pixelBoundary (K := ℚ) (5, 5) (some 2) = .ok [] := by decide +kernel

/-- C42: for a square image, and a multiple of four, the number of points is right. -/
theorem C42_square (n : ℕ) (hn : 1 < n) (m : ℕ) (hm : 0 < m) :
    ∃ l : List (K × K), pixelBoundary (n, n) (some (4 * m)) = .ok l ∧ l.length = 4 * m := by
  have hn' : (1 : K) < n := by exact_mod_cast hn
  have hr : ∀ w : K, 0 < w → sidePts (4 * (m : ℤ)) |w| (2 * (w + w)) = m := by
    intro w hw
    have : ((4 * (m : ℤ) : ℤ) : K) * |w| / (2 * (w + w)) = ((m : ℤ) : K) := by
      rw [abs_of_pos hw]
      push_cast
      field_simp
      ring
    rw [sidePts, this, rint]
    simp
  have hl : ∀ a b : K × K, ∃ l, linspaceOpen a b (m : ℤ) = .ok l ∧ l.length = m := fun a b =>
    ⟨_, by rw [linspaceOpen, if_neg (by omega)], by simp⟩
  have h4 : (4 * (m : ℤ)) ≠ 0 := by omega
  have hg : (some (4 * (m : ℤ))).getD 0 = 4 * m := rfl
  unfold pixelBoundary
  simp only [hg, if_neg h4]
  have hw : (0 : K) < (n : K) - 1 := by linarith
  generalize (n : K) - 1 = w at *
  unfold rectBoundary
  simp only [hr w hw]
  rw [if_neg (by positivity)]
  obtain ⟨a, ha, ha'⟩ := hl (0, 0) (w, 0)
  obtain ⟨b, hb, hb'⟩ := hl (w, 0) (w, w)
  obtain ⟨c, hc, hc'⟩ := hl (w, w) (0, w)
  obtain ⟨d, hd, hd'⟩ := hl (0, w) (0, 0)
  refine ⟨a ++ b ++ c ++ d, by rw [ha, hb, hc, hd]; rfl, by simp [ha', hb', hc', hd']; omega⟩

example : (pixelBoundary (K := ℚ) (4, 3) (some 10)).map List.length = .ok 10 := by decide +kernel

end Pixel

/-! ## C41 -/

section Surface

variable {K : Type} [Field K] [LinearOrder K] [IsStrictOrderedRing K] [FloorRing K]

/-- `np.linspace(a, b, n)`. -/
def linspace (a b : K) (n : ℕ) : List K := (List.range n).map fun k : ℕ => a + (k : K) * ((b - a) / ((n : K) - 1))

/-- The limit on the number of samples, orthority/camera.py:135-136; `h` and `w` are the shape of the surface. -/
def maxRaySteps (h w : ℕ) : ℕ := max (2 * Nat.sqrt (h ^ 2 + w ^ 2)) 32767

/-- The number of samples on a ray, orthority/camera.py:146-147, from the world points at the maximum and minimum
elevation.  `res` is the (signed) pixel size of the surface. -/
def raySteps (cap : ℕ) (res : K × K) (start stop : K × K × K) : ℕ :=
  min (⌈max |(stop.1 - start.1) / res.1| |(stop.2.1 - start.2.1) / res.2|⌉.toNat + 1) cap

/-- Whether a sample is at or below the surface (`nan` outside the surface), orthority/camera.py:160. -/
def hits (surf : K → K → Fl K) (p : K × K × K) : Bool :=
  match surf p.1 p.2.1 with
  | .nan => false
  | .val s => decide (p.2.2 ≤ s)

/-- The loop body of `Camera._pixel_to_world_surf`, orthority/camera.py:140-164, for one pixel.  `P` is `pixel_to_world_z` for
the pixel, and `surf` the interpolated surface, `nan` outside it (`cv2.remap`). -/
def surfPoint (P : K → K × K × K) (surf : K → K → Fl K) (cap : ℕ) (res : K × K) (minZ maxZ : K) : K × K × K :=
  let n := raySteps cap res (P maxZ) (P minZ)
  let ray := (linspace maxZ minZ n).map P
  match ray.find? (hits surf) with
  | some p => p
  | none => ray.getLastD (0, 0, 0)

theorem raySteps_pos {cap : ℕ} (hc : 0 < cap) (res : K × K) (a b : K × K × K) : 0 < raySteps cap res a b := by
  unfold raySteps
  omega

theorem linspace_getElem? (a b : K) (n k : ℕ) (h : k < n) :
    (linspace a b n)[k]? = some (a + (k : K) * ((b - a) / ((n : K) - 1))) := by
  simp [linspace, h]

/-- Elevation `k` of the samples. -/
def sampleZ (minZ maxZ : K) (n k : ℕ) : K := maxZ + (k : K) * ((minZ - maxZ) / ((n : K) - 1))

theorem sampleZ_mem (minZ maxZ : K) (h : minZ ≤ maxZ) (n k : ℕ) (hk : k < n) :
    minZ ≤ sampleZ minZ maxZ n k ∧ sampleZ minZ maxZ n k ≤ maxZ := by
  unfold sampleZ
  by_cases h1 : n = 1
  · have : k = 0 := by omega
    subst this
    simp [h]
  · have hn : (1 : K) < n := by exact_mod_cast (by omega : 1 < n)
    have hk' : (k : K) ≤ (n : K) - 1 := by
      have : ((k + 1 : ℕ) : K) ≤ n := by exact_mod_cast hk
      push_cast at this
      linarith
    have hk0 : (0 : K) ≤ k := Nat.cast_nonneg k
    have hd : (0 : K) < (n : K) - 1 := by linarith
    have e : (k : K) * ((minZ - maxZ) / ((n : K) - 1)) = -((maxZ - minZ) * (k / ((n : K) - 1))) := by field_simp; ring
    have hq0 : 0 ≤ (k : K) / ((n : K) - 1) := div_nonneg hk0 hd.le
    have hq1 : (k : K) / ((n : K) - 1) ≤ 1 := (div_le_one hd).2 hk'
    rw [e]
    constructor <;> nlinarith

/-- A point at or below the surface, at a place where the surface has a value. -/
def AtOrBelow (surf : K → K → Fl K) (p : K × K × K) : Prop := ∃ s, surf p.1 p.2.1 = .val s ∧ p.2.2 ≤ s

theorem hits_iff (surf : K → K → Fl K) (p : K × K × K) : hits surf p = true ↔ AtOrBelow surf p := by
  unfold hits AtOrBelow
  cases surf p.1 p.2.1 with
  | nan => simp
  | val s => simp

theorem hits_false_iff (surf : K → K → Fl K) (p : K × K × K) : hits surf p = false ↔ ¬ AtOrBelow surf p := by
  rw [← hits_iff]; simp

/-- C41: the point found is on the ray of the pixel, between the minimum and maximum elevations.  It is the first of the
samples that is at or below the surface, or the last sample if there is none. -/
theorem C41_first (P : K → K × K × K) (surf : K → K → Fl K) (cap : ℕ) (hc : 0 < cap) (res : K × K) (minZ maxZ : K)
    (hz : minZ ≤ maxZ) :
    let n := raySteps cap res (P maxZ) (P minZ)
    ∃ k < n, surfPoint P surf cap res minZ maxZ = P (sampleZ minZ maxZ n k) ∧
      minZ ≤ sampleZ minZ maxZ n k ∧ sampleZ minZ maxZ n k ≤ maxZ ∧
      (∀ j < k, ¬ AtOrBelow surf (P (sampleZ minZ maxZ n j))) ∧
      (AtOrBelow surf (P (sampleZ minZ maxZ n k)) ∨ k = n - 1) := by
  intro n
  simp only [← hits_iff, Bool.not_eq_true]
  have hn : 0 < n := raySteps_pos hc _ _ _
  have hget : ∀ k, k < n → ((linspace maxZ minZ n).map P)[k]? = some (P (sampleZ minZ maxZ n k)) := by
    intro k hk
    rw [List.getElem?_map, linspace_getElem? _ _ _ _ hk]
    rfl
  have hlen : ((linspace maxZ minZ n).map P).length = n := by simp [linspace]
  have hsp : surfPoint P surf cap res minZ maxZ =
      match ((linspace maxZ minZ n).map P).find? (hits surf) with
      | some p => p
      | none => ((linspace maxZ minZ n).map P).getLastD (0, 0, 0) := rfl
  cases hf : ((linspace maxZ minZ n).map P).find? (hits surf) with
  | some p =>
    obtain ⟨hp, k, hk, hpk, hj⟩ := List.find?_eq_some_iff_getElem.1 hf
    rw [hlen] at hk
    have hpk' : P (sampleZ minZ maxZ n k) = p := by
      have := hget k hk
      rw [List.getElem?_eq_getElem (by rw [hlen]; exact hk), hpk] at this
      injection this with this
      exact this.symm
    refine ⟨k, hk, ?_, (sampleZ_mem minZ maxZ hz n k hk).1, (sampleZ_mem minZ maxZ hz n k hk).2, ?_, .inl ?_⟩
    · rw [hsp, hf, hpk']
    · intro j hjk
      have h1 := hj j hjk
      have h2 := hget j (by omega)
      rw [List.getElem?_eq_getElem (by rw [hlen]; omega)] at h2
      injection h2 with h2
      rw [← h2]
      simpa using h1
    · rw [hpk']; exact hp
  | none =>
    have hnone := List.find?_eq_none.1 hf
    have hmem : ∀ j < n, P (sampleZ minZ maxZ n j) ∈ (linspace maxZ minZ n).map P := fun j hj =>
      List.mem_of_getElem? (hget j hj)
    refine ⟨n - 1, by omega, ?_, (sampleZ_mem minZ maxZ hz n _ (by omega)).1, (sampleZ_mem minZ maxZ hz n _ (by omega)).2,
      fun j hj => by simpa using hnone _ (hmem j (by omega)), .inr rfl⟩
    rw [hsp, hf]
    show ((linspace maxZ minZ n).map P).getLastD (0, 0, 0) = _
    rw [List.getLastD_eq_getLast?, List.getLast?_eq_getElem?, hlen, hget (n - 1) (by omega)]
    rfl

/-- C41, the part that holds: if no sample is at or below the surface the point at the minimum elevation is returned, when
the ray is not vertical.  Missing: vertical rays (`C41_vertical_fails`). -/
theorem C41_fallback_partial (P : K → K × K × K) (surf : K → K → Fl K) (cap : ℕ) (hc : 1 < cap) (res : K × K) (minZ maxZ : K)
    (hres : res.1 ≠ 0 ∧ res.2 ≠ 0) (hv : (P minZ).1 ≠ (P maxZ).1 ∨ (P minZ).2.1 ≠ (P maxZ).2.1)
    (hmiss : ∀ k < raySteps cap res (P maxZ) (P minZ),
      ¬ AtOrBelow surf (P (sampleZ minZ maxZ (raySteps cap res (P maxZ) (P minZ)) k))) :
    surfPoint P surf cap res minZ maxZ = P minZ := by
  simp only [← hits_iff, Bool.not_eq_true] at hmiss
  obtain ⟨n, hn⟩ : ∃ n, n = raySteps cap res (P maxZ) (P minZ) := ⟨_, rfl⟩
  have hn2 : 2 ≤ n := by
    have hpos : (0 : K) < max |((P minZ).1 - (P maxZ).1) / res.1| |((P minZ).2.1 - (P maxZ).2.1) / res.2| := by
      rcases hv with hv | hv
      · exact lt_max_of_lt_left (abs_pos.2 (div_ne_zero (sub_ne_zero.2 hv) hres.1))
      · exact lt_max_of_lt_right (abs_pos.2 (div_ne_zero (sub_ne_zero.2 hv) hres.2))
    have := Int.ceil_pos.2 hpos
    rw [hn]
    unfold raySteps
    omega
  rw [← hn] at hmiss
  have hsp : surfPoint P surf cap res minZ maxZ =
      match ((linspace maxZ minZ n).map P).find? (hits surf) with
      | some p => p
      | none => ((linspace maxZ minZ n).map P).getLastD (0, 0, 0) := by rw [hn]; rfl
  have hf : ((linspace maxZ minZ n).map P).find? (hits surf) = none := by
    rw [List.find?_eq_none]
    intro p hp
    simp only [linspace, List.map_map, List.mem_map, List.mem_range, Function.comp] at hp
    obtain ⟨k, hk, rfl⟩ := hp
    have := hmiss k hk
    unfold sampleZ at this
    simp [this]
  have hlast : ((linspace maxZ minZ n).map P).getLastD (0, 0, 0) = P (sampleZ minZ maxZ n (n - 1)) := by
    rw [List.getLastD_eq_getLast?, List.getLast?_eq_getElem?]
    have hlen : ((linspace maxZ minZ n).map P).length = n := by simp [linspace]
    rw [hlen, List.getElem?_map, linspace_getElem? _ _ _ _ (by omega)]
    rfl
  have h1 : (1 : K) < n := by exact_mod_cast (by omega : 1 < n)
  have hd : (n : K) - 1 ≠ 0 := by intro h; linarith
  have hz : sampleZ minZ maxZ n (n - 1) = minZ := by
    unfold sampleZ
    rw [Nat.cast_sub (by omega), Nat.cast_one, mul_div_cancel₀ _ hd]
    ring
  rw [hsp, hf, hlast, hz]

/-- C41: for a vertical ray (as under a camera looking straight down) that misses the surface, the point at the maximum
elevation is returned, and not the one at the minimum. -/
theorem C41_vertical_fails :
    surfPoint (K := ℚ) (fun z => (3, 4, z)) (fun _ _ => .nan) (maxRaySteps 10 10) (1, -1) 0 100 = (3, 4, 100) := by
  decide +kernel

theorem maxRaySteps_ge (h w : ℕ) : 32767 ≤ maxRaySteps h w := le_max_right _ _

/-- A ray between two points crosses at most 32765 pixels of the surface, in x and in y; `res` is the (signed) pixel size. -/
def Short {K : Type} [Field K] [LinearOrder K] (res : K × K) (start stop : K × K × K) : Prop :=
  |(stop.1 - start.1) / res.1| ≤ 32765 ∧ |(stop.2.1 - start.2.1) / res.2| ≤ 32765

theorem raySteps_lt_iff {K : Type} [Field K] [LinearOrder K] [IsStrictOrderedRing K] [FloorRing K] {cap : ℕ} (hc : 32767 ≤ cap)
    (res : K × K) (a b : K × K × K) : raySteps cap res a b < 32767 ↔ Short res a b := by
  unfold raySteps Short
  rw [← max_le_iff]
  generalize max |(b.1 - a.1) / res.1| |(b.2.1 - a.2.1) / res.2| = x
  have : x ≤ 32765 ↔ ⌈x⌉ ≤ 32765 := by rw [Int.ceil_le]; norm_num
  rw [this]
  omega

theorem Short.refl {K : Type} [Field K] [LinearOrder K] [IsStrictOrderedRing K] (res : K × K) (a : K × K × K) : Short res a a := by
  simp [Short]

/-- C41: the limit on the number of samples is, to within 2, the larger of 32767 and twice the diagonal of the surface. -/
theorem C41_cap (h w : ℕ) : (maxRaySteps h w : ℝ) ≤ max (2 * √((h : ℝ) ^ 2 + (w : ℝ) ^ 2)) 32767 ∧
    max (2 * √((h : ℝ) ^ 2 + (w : ℝ) ^ 2)) 32767 < maxRaySteps h w + 2 := by
  have e : ((h : ℝ) ^ 2 + (w : ℝ) ^ 2) = ((h ^ 2 + w ^ 2 : ℕ) : ℝ) := by push_cast; ring
  have h1 : ((Nat.sqrt (h ^ 2 + w ^ 2) : ℕ) : ℝ) ≤ √((h ^ 2 + w ^ 2 : ℕ) : ℝ) := Real.nat_sqrt_le_real_sqrt
  have h2 : √((h ^ 2 + w ^ 2 : ℕ) : ℝ) < (Nat.sqrt (h ^ 2 + w ^ 2) : ℕ) + 1 := Real.real_sqrt_lt_nat_sqrt_succ
  rw [e]
  unfold maxRaySteps
  push_cast at h1 h2 ⊢
  constructor
  · exact max_le_max (by linarith) le_rfl
  · rcases max_cases (2 * √((h : ℝ) ^ 2 + (w : ℝ) ^ 2)) 32767 with ⟨q, -⟩ | ⟨q, -⟩ <;> rw [q]
    · have := le_max_left (2 * ((Nat.sqrt (h ^ 2 + w ^ 2) : ℕ) : ℝ)) 32767
      linarith
    · have := le_max_right (2 * ((Nat.sqrt (h ^ 2 + w ^ 2) : ℕ) : ℝ)) 32767
      linarith

/-- C41: the limit does not apply to rays that cross no more columns and rows than the surface has. -/
theorem C41_uncapped (h w : ℕ) (res : K × K) (a b : K × K × K) (hx : |(b.1 - a.1) / res.1| ≤ w) (hy : |(b.2.1 - a.2.1) / res.2| ≤ h) :
    raySteps (maxRaySteps h w) res a b < maxRaySteps h w := by
  have h1 : ⌈max |(b.1 - a.1) / res.1| |(b.2.1 - a.2.1) / res.2|⌉.toNat ≤ max h w := by
    rw [Int.toNat_le, Int.ceil_le]
    push_cast
    rw [max_comm]
    exact max_le_max hy hx
  have h2 : max h w ≤ Nat.sqrt (h ^ 2 + w ^ 2) := by
    rw [Nat.le_sqrt']
    rcases max_cases h w with ⟨q, -⟩ | ⟨q, -⟩ <;> rw [q] <;> omega
  unfold raySteps maxRaySteps
  omega

/-- C41: for a frame camera (with points that move linearly with the elevation) samples next to each other are no farther
apart than the resolution of the surface in x and in y, unless the limit on the number of samples applies. -/
theorem C41_spacing (A B : K × K × K) (P : K → K × K × K) (hP : ∀ z, P z = (A.1 + z * B.1, A.2.1 + z * B.2.1, A.2.2 + z * B.2.2))
    (cap : ℕ) (res : K × K) (hres : res.1 ≠ 0 ∧ res.2 ≠ 0) (minZ maxZ : K)
    (hcap : raySteps cap res (P maxZ) (P minZ) < cap) (k : ℕ)
    (hk : k + 1 < raySteps cap res (P maxZ) (P minZ)) :
    let n := raySteps cap res (P maxZ) (P minZ)
    |(P (sampleZ minZ maxZ n (k + 1))).1 - (P (sampleZ minZ maxZ n k)).1| ≤ |res.1| ∧
    |(P (sampleZ minZ maxZ n (k + 1))).2.1 - (P (sampleZ minZ maxZ n k)).2.1| ≤ |res.2| := by
  intro n
  have hn : n = ⌈max |((P minZ).1 - (P maxZ).1) / res.1| |((P minZ).2.1 - (P maxZ).2.1) / res.2|⌉.toNat + 1 := by
    have : n = raySteps cap res (P maxZ) (P minZ) := rfl
    unfold raySteps at this hcap
    omega
  have hn2 : 2 ≤ n := by
    have : k + 1 < n := hk
    omega
  have hd : (0 : K) < (n : K) - 1 := by
    have : (1 : K) < n := by exact_mod_cast (by omega : 1 < n)
    linarith
  have hge : max |((P minZ).1 - (P maxZ).1) / res.1| |((P minZ).2.1 - (P maxZ).2.1) / res.2| ≤ (n : K) - 1 := by
    refine (Int.le_ceil _).trans ?_
    have h1 : (⌈max |((P minZ).1 - (P maxZ).1) / res.1| |((P minZ).2.1 - (P maxZ).2.1) / res.2|⌉ : ℤ) ≤ (n : ℤ) - 1 := by
      rw [hn]
      push_cast
      have := Int.self_le_toNat ⌈max |((P minZ).1 - (P maxZ).1) / res.1| |((P minZ).2.1 - (P maxZ).2.1) / res.2|⌉
      omega
    exact_mod_cast h1
  have hstep : sampleZ minZ maxZ n (k + 1) - sampleZ minZ maxZ n k = (minZ - maxZ) / ((n : K) - 1) := by
    unfold sampleZ
    push_cast
    ring
  have key : ∀ b r : K, r ≠ 0 → |(minZ - maxZ) * b / r| ≤ (n : K) - 1 → |(minZ - maxZ) / ((n : K) - 1) * b| ≤ |r| := by
    intro b r hr h
    rw [abs_div, div_le_iff₀ (abs_pos.2 hr)] at h
    rw [div_mul_eq_mul_div, abs_div, abs_of_pos hd, div_le_iff₀ hd]
    linarith
  constructor
  · have e : (P (sampleZ minZ maxZ n (k + 1))).1 - (P (sampleZ minZ maxZ n k)).1 = (minZ - maxZ) / ((n : K) - 1) * B.1 := by
      rw [hP, hP, ← hstep]; ring
    rw [e]
    refine key _ _ hres.1 (le_trans (le_of_eq ?_) ((le_max_left _ _).trans hge))
    rw [hP, hP]
    congr 2
    ring
  · have e : (P (sampleZ minZ maxZ n (k + 1))).2.1 - (P (sampleZ minZ maxZ n k)).2.1 = (minZ - maxZ) / ((n : K) - 1) * B.2.1 := by
      rw [hP, hP, ← hstep]; ring
    rw [e]
    refine key _ _ hres.2 (le_trans (le_of_eq ?_) ((le_max_right _ _).trans hge))
    rw [hP, hP]
    congr 2
    ring

/-- The slanted ray over a plane, with a hole where the surface is not known: the samples over the hole do not hit. -/
example : surfPoint (K := ℚ) (fun z => (100 - z, 0, z)) (fun x _ => if x < 50 then .nan else .val 90) (maxRaySteps 10 10)
    (10, -10) 0 100 = (50, 0, 50) := by
  decide +kernel

/-- A slanted ray over a surface at elevation 30, except for a hill: the hill is hit. -/
example : surfPoint (K := ℚ) (fun z => (100 - z, 0, z)) (fun x _ => .val (if 20 ≤ x then 90 else 30)) (maxRaySteps 10 10)
    (10, -10) 0 100 = (20, 0, 80) := by
  decide +kernel

end Surface

/-- C41: where the surface is continuous along the ray of a frame camera, the point found is no farther from a point on the
surface and the ray than the resolution of the surface, in x and in y (unless the limit on the number of samples applies).
`minZ` and `maxZ` are the extremes of the surface. -/
theorem C41_accuracy (A B : ℝ × ℝ × ℝ) (P : ℝ → ℝ × ℝ × ℝ) (hP : ∀ z, P z = (A.1 + z * B.1, A.2.1 + z * B.2.1, z))
    (surf : ℝ → ℝ → Fl ℝ) (g : ℝ → ℝ) (cap : ℕ) (res : ℝ × ℝ) (hres : res.1 ≠ 0 ∧ res.2 ≠ 0) (minZ maxZ : ℝ) (hz : minZ ≤ maxZ)
    (hcap : raySteps cap res (P maxZ) (P minZ) < cap)
    (hg : ∀ z, minZ ≤ z → z ≤ maxZ → surf (P z).1 (P z).2.1 = .val (g z)) (hc : ContinuousOn g (Set.Icc minZ maxZ))
    (hlo : minZ ≤ g minZ) (hhi : g maxZ ≤ maxZ) :
    ∃ z, minZ ≤ z ∧ z ≤ maxZ ∧ surf (P z).1 (P z).2.1 = .val (P z).2.2 ∧
      |(surfPoint P surf cap res minZ maxZ).1 - (P z).1| ≤ |res.1| ∧
      |(surfPoint P surf cap res minZ maxZ).2.1 - (P z).2.1| ≤ |res.2| := by
  have hPz : ∀ z, (P z).2.2 = z := fun z => by rw [hP]
  have hcap0 : 0 < cap := by omega
  obtain ⟨k, hk, hpt, hk1, hk2, hprev, hhit⟩ := C41_first P surf cap hcap0 res minZ maxZ hz
  have hsp := C41_spacing (A.1, A.2.1, 0) (B.1, B.2.1, 1) P (fun z => by rw [hP]; simp) cap res hres minZ maxZ hcap
  obtain ⟨n, hn⟩ : ∃ n, n = raySteps cap res (P maxZ) (P minZ) := ⟨_, rfl⟩
  rw [← hn] at hk hpt hk1 hk2 hprev hhit hsp hcap
  simp only [] at hsp
  rw [hpt]
  have below : ∀ z, minZ ≤ z → z ≤ maxZ → (AtOrBelow surf (P z) ↔ z ≤ g z) := by
    intro z h1 h2
    unfold AtOrBelow
    rw [hg z h1 h2, hPz]
    simp
  -- a crossing between two elevations
  have cross : ∀ a b, minZ ≤ a → a ≤ b → b ≤ maxZ → a ≤ g a → g b ≤ b → ∃ z, a ≤ z ∧ z ≤ b ∧ g z = z := by
    intro a b ha hab hb hga hgb
    have hcont : ContinuousOn (fun z => g z - z) (Set.Icc a b) :=
      (hc.mono (Set.Icc_subset_Icc ha hb)).sub continuousOn_id
    have := intermediate_value_Icc' hab hcont
    obtain ⟨z, hz, hz'⟩ := this ⟨(by simp only; linarith : (fun z => g z - z) b ≤ 0), (by simp only; linarith : 0 ≤ (fun z => g z - z) a)⟩
    exact ⟨z, hz.1, hz.2, by simp only at hz'; linarith⟩
  by_cases hk0 : k = 0
  · subst hk0
    have h0 : sampleZ minZ maxZ n 0 = maxZ := by simp [sampleZ]
    rw [h0] at hhit ⊢
    by_cases hh : AtOrBelow surf (P maxZ)
    · have h1 := (below maxZ hz le_rfl).1 hh
      refine ⟨maxZ, hz, le_rfl, ?_, by simp, by simp⟩
      rw [hg maxZ hz le_rfl, hPz, le_antisymm hhi h1]
    · have hn1 : n = 1 := by
        rcases hhit with h | h
        · exact absurd h hh
        · omega
      obtain ⟨z, hz1, hz2, hz3⟩ := cross minZ maxZ le_rfl hz le_rfl hlo hhi
      have hzero : max |((P minZ).1 - (P maxZ).1) / res.1| |((P minZ).2.1 - (P maxZ).2.1) / res.2| ≤ 0 := by
        rw [hn1] at hn hcap
        unfold raySteps at hn
        have : ⌈max |((P minZ).1 - (P maxZ).1) / res.1| |((P minZ).2.1 - (P maxZ).2.1) / res.2|⌉ ≤ 0 := by omega
        have h := Int.ceil_le.1 this
        simpa using h
      have hx : (minZ - maxZ) * B.1 = 0 := by
        have h1 : |((P minZ).1 - (P maxZ).1) / res.1| ≤ 0 := (le_max_left _ _).trans hzero
        have h2 := abs_eq_zero.1 (le_antisymm h1 (abs_nonneg _))
        rw [div_eq_zero_iff] at h2
        rcases h2 with h2 | h2
        · rw [hP, hP] at h2; simp only at h2; linarith
        · exact absurd h2 hres.1
      have hy : (minZ - maxZ) * B.2.1 = 0 := by
        have h1 : |((P minZ).2.1 - (P maxZ).2.1) / res.2| ≤ 0 := (le_max_right _ _).trans hzero
        have h2 := abs_eq_zero.1 (le_antisymm h1 (abs_nonneg _))
        rw [div_eq_zero_iff] at h2
        rcases h2 with h2 | h2
        · rw [hP, hP] at h2; simp only at h2; linarith
        · exact absurd h2 hres.2
      have same : ∀ b : ℝ, (minZ - maxZ) * b = 0 → (maxZ - z) * b = 0 := by
        intro b hb
        rcases mul_eq_zero.1 hb with h | h
        · have : maxZ - z = 0 := by linarith
          rw [this, zero_mul]
        · rw [h, mul_zero]
      refine ⟨z, hz1, hz2, by rw [hg z hz1 hz2, hPz, hz3], ?_, ?_⟩
      · rw [hP, hP]
        simp only
        have := same _ hx
        rw [show A.1 + maxZ * B.1 - (A.1 + z * B.1) = (maxZ - z) * B.1 by ring, this, abs_zero]
        exact abs_nonneg _
      · rw [hP, hP]
        simp only
        have := same _ hy
        rw [show A.2.1 + maxZ * B.2.1 - (A.2.1 + z * B.2.1) = (maxZ - z) * B.2.1 by ring, this, abs_zero]
        exact abs_nonneg _
  · have hk' : k - 1 + 1 = k := by omega
    have hn2 : 1 < n := by omega
    have hd : (0 : ℝ) < (n : ℝ) - 1 := by
      have : (1 : ℝ) < n := by exact_mod_cast hn2
      linarith
    obtain ⟨hp1, hp2⟩ := sampleZ_mem minZ maxZ hz n (k - 1) (by omega)
    have hstep : sampleZ minZ maxZ n k - sampleZ minZ maxZ n (k - 1) = (minZ - maxZ) / ((n : ℝ) - 1) := by
      rw [← hk']
      unfold sampleZ
      push_cast
      ring
    have hle : sampleZ minZ maxZ n k ≤ sampleZ minZ maxZ n (k - 1) := by
      have : (minZ - maxZ) / ((n : ℝ) - 1) ≤ 0 := div_nonpos_of_nonpos_of_nonneg (by linarith) hd.le
      linarith
    have hlow : sampleZ minZ maxZ n k ≤ g (sampleZ minZ maxZ n k) := by
      rcases hhit with h | h
      · exact (below _ hk1 hk2).1 h
      · have : sampleZ minZ maxZ n k = minZ := by
          rw [h]
          unfold sampleZ
          rw [Nat.cast_sub (by omega), Nat.cast_one, mul_div_cancel₀ _ hd.ne']
          ring
        rw [this]; exact hlo
    have hup : g (sampleZ minZ maxZ n (k - 1)) ≤ sampleZ minZ maxZ n (k - 1) := by
      have := hprev (k - 1) (by omega)
      rw [below _ hp1 hp2] at this
      linarith
    obtain ⟨z, hz1, hz2, hz3⟩ := cross _ _ hk1 hle hp2 hlow hup
    have hspk := hsp (k - 1) (by omega)
    rw [hk'] at hspk
    refine ⟨z, hk1.trans hz1, hz2.trans hp2, by rw [hg z (hk1.trans hz1) (hz2.trans hp2), hPz, hz3], ?_, ?_⟩
    · refine le_trans ?_ hspk.1
      rw [hP, hP, hP]
      simp only
      rw [show A.1 + sampleZ minZ maxZ n k * B.1 - (A.1 + z * B.1) = (sampleZ minZ maxZ n k - z) * B.1 by ring,
        show A.1 + sampleZ minZ maxZ n k * B.1 - (A.1 + sampleZ minZ maxZ n (k - 1) * B.1) =
          (sampleZ minZ maxZ n k - sampleZ minZ maxZ n (k - 1)) * B.1 by ring, abs_mul, abs_mul]
      refine mul_le_mul_of_nonneg_right ?_ (abs_nonneg _)
      rw [abs_of_nonpos (by linarith), abs_of_nonpos (by linarith)]
      linarith
    · refine le_trans ?_ hspk.2
      rw [hP, hP, hP]
      simp only
      rw [show A.2.1 + sampleZ minZ maxZ n k * B.2.1 - (A.2.1 + z * B.2.1) = (sampleZ minZ maxZ n k - z) * B.2.1 by ring,
        show A.2.1 + sampleZ minZ maxZ n k * B.2.1 - (A.2.1 + sampleZ minZ maxZ n (k - 1) * B.2.1) =
          (sampleZ minZ maxZ n k - sampleZ minZ maxZ n (k - 1)) * B.2.1 by ring, abs_mul, abs_mul]
      refine mul_le_mul_of_nonneg_right ?_ (abs_nonneg _)
      rw [abs_of_nonpos (by linarith), abs_of_nonpos (by linarith)]
      linarith

/-- The hypotheses of `C41_accuracy` hold for a ray at 45 degrees over a slope. -/
example : ∃ z : ℝ, 0 ≤ z ∧ z ≤ 100 ∧
    |(surfPoint (fun z => (100 - z, 0, z)) (fun x _ => .val (x / 2)) 1000 ((10 : ℝ), (-10 : ℝ)) 0 100).1 - (100 - z)| ≤ 10 := by
  have hn : raySteps (K := ℝ) 1000 (10, -10) (100 - 100, 0, 100) (100 - 0, 0, 0) = 11 := by
    have : max |((100 : ℝ) - 0 - (100 - 100)) / 10| |((0 : ℝ) - 0) / (-10)| = ((10 : ℤ) : ℝ) := by norm_num
    unfold raySteps
    simp only
    rw [this, Int.ceil_intCast]
    rfl
  obtain ⟨z, h1, h2, -, h4, -⟩ := C41_accuracy (100, 0, 0) (-1, 0, 0) (fun z => (100 - z, 0, z)) (fun z => by ext <;> simp; ring)
    (fun x _ => .val (x / 2)) (fun z => (100 - z) / 2) 1000 (10, -10) (by norm_num) 0 100 (by norm_num) (by rw [hn]; norm_num)
    (fun z _ _ => rfl) (by fun_prop) (by norm_num) (by norm_num)
  refine ⟨z, h1, h2, by simpa using h4⟩

/-- C41: the points of a pixel of a frame camera move linearly with the elevation. -/
theorem C41_linear (c : FrameCam) (R : M3) (T : V3) (ji : ℝ × ℝ) :
    ∃ A B : V3, ∀ z i, c.pointAtZ R T ji z i = A i + z * B i := by
  refine ⟨fun i => T i - (R.mulVec (c.toCam ji)) i * T 2 / (R.mulVec (c.toCam ji)) 2,
    fun i => (R.mulVec (c.toCam ji)) i / (R.mulVec (c.toCam ji)) 2, fun z i => ?_⟩
  simp only [FrameCam.pointAtZ]
  ring

end Verif.Frame
