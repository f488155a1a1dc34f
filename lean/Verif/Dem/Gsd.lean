import Mathlib.Analysis.Real.Sqrt
import Mathlib.Algebra.BigOperators.Group.Finset.Basic
import Mathlib.Algebra.BigOperators.Ring.Finset
import Mathlib.Data.Fintype.BigOperators
import Mathlib.Algebra.Group.Fin.Basic
import Mathlib.Algebra.BigOperators.Fin
import Mathlib.Tactic.Abel
import Mathlib.Tactic.FinCases
import Mathlib.Data.Matrix.Mul
import Mathlib.Tactic.LinearCombination
import Mathlib.Tactic.Linarith
import Verif.Base.Affine

/-!
# C55: ground sampling distance
-/

set_option autoImplicit false
set_option linter.unusedSectionVars false

namespace Verif.Dem
open Finset

/-! ## Model -/

/-- orthority/ortho.py:212-218 `area_poly`, for points `(x i, y i)` with `n` of them.  `np.roll(a, -1)[i]` is
`a[(i + 1) mod n]`, and `i + 1` in `Fin n` is modulo `n`. -/
noncomputable def areaPoly {n : ℕ} [NeZero n] (p : Fin n → ℝ × ℝ) : ℝ :=
  0.5 * |(∑ i, (p i).1 * (p (i + 1)).2) - ∑ i, (p (i + 1)).1 * (p i).2|

/-- orthority/ortho.py:207-232 `_get_gsd`, from the boundary in pixel coordinates (line 222) and in world coordinates
at the median DEM elevation (lines 223-227).  The elevation and the camera are not modelled here.  `np.sqrt` of a
NaN or infinite ratio (pixel area zero) is not modelled: theorems assume an area. -/
noncomputable def getGsd {n : ℕ} [NeZero n] (ji xy : Fin n → ℝ × ℝ) : ℝ := Real.sqrt (areaPoly xy / areaPoly ji)

/-! ## Proofs -/

variable {n : ℕ} [NeZero n]

theorem sum_shift (f : Fin n → ℝ) (k : Fin n) : ∑ i, f (i + k) = ∑ i, f i :=
  Equiv.sum_comp (Equiv.addRight k) f

theorem sum_flip (f : Fin n → ℝ) (k : Fin n) : ∑ i, f (k - i) = ∑ i, f i :=
  Equiv.sum_comp (Equiv.subLeft k) f

/-- C55: the area, and so the resolution, does not depend on the point that the boundary starts with. -/
theorem C55_start (ji xy : Fin n → ℝ × ℝ) (k : Fin n) :
    getGsd (fun i => ji (i + k)) (fun i => xy (i + k)) = getGsd ji xy := by
  have h : ∀ p : Fin n → ℝ × ℝ, areaPoly (fun i => p (i + k)) = areaPoly p := by
    intro p
    unfold areaPoly
    have e : ∀ i : Fin n, i + 1 + k = i + k + 1 := fun i => by rw [add_right_comm]
    simp only [e]
    rw [sum_shift (fun i => (p i).1 * (p (i + 1)).2) k, sum_shift (fun i => (p (i + 1)).1 * (p i).2) k]
  unfold getGsd
  rw [h, h]

/-- C55: nor on the direction of the boundary (`Fin.rev` is numpy's `[::-1]`). -/
theorem C55_direction (ji xy : Fin n → ℝ × ℝ) : getGsd (fun i => ji i.rev) (fun i => xy i.rev) = getGsd ji xy := by
  have hrev : ∀ i : Fin n, i.rev = -1 - i := by
    intro i
    obtain ⟨m, rfl⟩ : ∃ m, n = m + 1 := ⟨n - 1, by have := NeZero.ne n; omega⟩
    have : (-1 : Fin (m + 1)) = Fin.last m := by rw [← Fin.neg_last m, neg_neg]
    have h1 : ∀ inst : NeZero (m + 1), (@OfNat.ofNat (Fin (m + 1)) 1 (@Fin.instOfNat (m + 1) inst 1)) = 1 := fun _ => rfl
    rw [← Fin.last_sub, ← this]
  have h : ∀ p : Fin n → ℝ × ℝ, areaPoly (fun i => p i.rev) = areaPoly p := by
    intro p
    unfold areaPoly
    simp only [hrev]
    have e : ∀ i : Fin n, -1 - (i + 1) + 1 = -1 - i := fun i => by abel
    have e1 : ∑ i : Fin n, (p (-1 - i)).1 * (p (-1 - (i + 1))).2 = ∑ i, (p (i + 1)).1 * (p i).2 := by
      rw [← sum_flip (fun i => (p (i + 1)).1 * (p i).2) (-1 - 1)]
      refine Finset.sum_congr rfl fun i _ => ?_
      rw [show -1 - 1 - i + 1 = -1 - i by abel, show -1 - (i + 1) = -1 - 1 - i by abel]
    have e2 : ∑ i : Fin n, (p (-1 - (i + 1))).1 * (p (-1 - i)).2 = ∑ i, (p i).1 * (p (i + 1)).2 := by
      rw [← sum_flip (fun i => (p i).1 * (p (i + 1)).2) (-1 - 1)]
      refine Finset.sum_congr rfl fun i _ => ?_
      rw [show -1 - 1 - i + 1 = -1 - i by abel, show -1 - (i + 1) = -1 - 1 - i by abel]
    rw [e1, e2, abs_sub_comm]
  unfold getGsd
  rw [h, h]

/-- Area of the image of a polygon under an affine map. -/
theorem areaPoly_affine (t : Affine ℝ) (p : Fin n → ℝ × ℝ) :
    areaPoly (fun i => t.apply (p i).1 (p i).2) = |t.det| * areaPoly p := by
  unfold areaPoly
  rw [mul_left_comm, ← abs_mul]
  congr 2
  rw [← Finset.sum_sub_distrib, ← Finset.sum_sub_distrib, Finset.mul_sum]
  have t1 := sum_shift (fun i => (p i).1) 1
  have t2 := sum_shift (fun i => (p i).2) 1
  have t3 := sum_shift (fun i => (p i).1 * (p i).2) 1
  have key : ∑ i, ((t.apply (p i).1 (p i).2).1 * (t.apply (p (i + 1)).1 (p (i + 1)).2).2 -
      (t.apply (p (i + 1)).1 (p (i + 1)).2).1 * (t.apply (p i).1 (p i).2).2) -
      ∑ i, t.det * ((p i).1 * (p (i + 1)).2 - (p (i + 1)).1 * (p i).2) =
      (t.c * t.d - t.a * t.f) * ∑ i, (p (i + 1)).1 + (t.a * t.f - t.c * t.d) * ∑ i, (p i).1 +
      (t.c * t.e - t.b * t.f) * ∑ i, (p (i + 1)).2 + (t.b * t.f - t.c * t.e) * ∑ i, (p i).2 := by
    simp only [Finset.mul_sum]
    simp only [← Finset.sum_sub_distrib, ← Finset.sum_add_distrib]
    refine Finset.sum_congr rfl fun i _ => ?_
    simp only [Affine.apply, Affine.det]
    ring
  rw [t1, t2] at key
  linear_combination key

/-- C55: when the world boundary is mapped by an affine map, the resolution is multiplied by the square root of its
determinant. -/
theorem C55_affine (t : Affine ℝ) (ji xy : Fin n → ℝ × ℝ) :
    getGsd ji (fun i => t.apply (xy i).1 (xy i).2) = Real.sqrt |t.det| * getGsd ji xy := by
  unfold getGsd
  rw [areaPoly_affine, mul_div_assoc, Real.sqrt_mul (abs_nonneg _)]

/-- C55: the resolution does not depend on the origin of the world coordinates. -/
theorem C55_translation (ji xy : Fin n → ℝ × ℝ) (dx dy : ℝ) :
    getGsd ji (fun i => ((xy i).1 + dx, (xy i).2 + dy)) = getGsd ji xy := by
  have := C55_affine (.translation dx dy) ji xy
  simp only [Affine.apply_translation] at this
  rw [this]
  simp [Affine.det, Affine.translation]

/-- C55: the resolution scales with the units of the world coordinates. -/
theorem C55_units (ji xy : Fin n → ℝ × ℝ) (s : ℝ) (hs : 0 ≤ s) :
    getGsd ji (fun i => (s * (xy i).1, s * (xy i).2)) = s * getGsd ji xy := by
  have h := C55_affine (.scale s s) ji xy
  have e : ∀ x y : ℝ, (Affine.scale s s).apply x y = (s * x, s * y) := by
    intro x y; simp [Affine.apply, Affine.scale]
  simp only [e] at h
  rw [h]
  congr 1
  have : (Affine.scale s s : Affine ℝ).det = s * s := by simp [Affine.det, Affine.scale]
  rw [this, abs_of_nonneg (mul_self_nonneg s), Real.sqrt_mul_self hs]

/-- C55: for a camera that maps pixels to the world by a rotation or reflection and a pixel size `g`, the resolution is
that pixel size. -/
theorem C55_pixel_size (ji : Fin n → ℝ × ℝ) (h : areaPoly ji ≠ 0) (t : Affine ℝ) (g : ℝ) (hg : 0 ≤ g)
    (ht : |t.det| = g * g) : getGsd ji (fun i => t.apply (ji i).1 (ji i).2) = g := by
  rw [C55_affine, ht, Real.sqrt_mul_self hg]
  unfold getGsd
  rw [div_self h]
  simp

/-- The shoelace formula is the area: that of a triangle is half the magnitude of the cross product of two sides. -/
theorem C55_triangle (p : Fin 3 → ℝ × ℝ) : areaPoly p =
    |((p 1).1 - (p 0).1) * ((p 2).2 - (p 0).2) - ((p 2).1 - (p 0).1) * ((p 1).2 - (p 0).2)| / 2 := by
  unfold areaPoly
  simp only [Fin.sum_univ_three]
  rw [show (0 : Fin 3) + 1 = 1 from rfl, show (1 : Fin 3) + 1 = 2 from rfl, show (2 : Fin 3) + 1 = 0 from rfl]
  have key : ∀ a b : ℝ, a = b → 0.5 * |a| = |b| / 2 := by
    rintro a b rfl
    ring
  exact key _ _ (by ring)

/-- The boundary of a 3 x 2 pixel image, half a metre per pixel on the ground. -/
example : getGsd (n := 4) ![(0, 0), (2, 0), (2, 1), (0, 1)] ![(100, 50), (101, 50), (101, 49.5), (100, 49.5)] = 0.5 := by
  have h : areaPoly (n := 4) ![(0, 0), (2, 0), (2, 1), (0, 1)] = 2 := by
    simp only [areaPoly, Fin.sum_univ_four, show (3 : Fin 4) + 1 = 0 from rfl, show (2 : Fin 4) + 1 = 3 from rfl,
      show (1 : Fin 4) + 1 = 2 from rfl, show (0 : Fin 4) + 1 = 1 from rfl, Matrix.cons_val]
    norm_num
  have e := C55_pixel_size (n := 4) ![(0, 0), (2, 0), (2, 1), (0, 1)] (by rw [h]; norm_num)
    ⟨0.5, 0, 100, 0, -0.5, 50⟩ 0.5 (by norm_num) (by norm_num [Affine.det])
  rw [← e]
  congr 1
  funext i
  fin_cases i <;> norm_num [Affine.apply]

end Verif.Dem
