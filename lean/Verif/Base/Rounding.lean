import Mathlib.Algebra.Order.Archimedean.Real.Basic
import Mathlib.Data.Int.Log
import Mathlib.Algebra.Order.Round
import Mathlib.Algebra.BigOperators.Fin
import Mathlib.GroupTheory.Perm.Fin
import Mathlib.Tactic.Linarith
import Mathlib.Tactic.Positivity
import Mathlib.Tactic.FieldSimp
import Mathlib.Tactic.NormNum

/-!
# Rounding of floating point numbers

What IEEE 754 says of rounding to nearest: the result is within half a unit in the last place.
-/

set_option autoImplicit false

namespace Verif

/-- `fl` rounds real numbers of size up to `M` with relative error `u`, or that of `m` for numbers smaller than `m`. -/
structure Rounds (u m M : ℝ) (fl : ℝ → ℝ) : Prop where
  err : ∀ x, |x| ≤ M → |fl x - x| ≤ u * max |x| m
  zero : fl 0 = 0

/-- Rounding to nearest in `float64`, whatever the rule for ties (numpy's default data type). -/
abbrev Rounds64 (fl : ℝ → ℝ) : Prop := Rounds (1 / 2 ^ 53) (1 / 2 ^ 1022) (2 ^ 1023) fl

/-- Rounding to nearest in `float32`. -/
abbrev Rounds32 (fl : ℝ → ℝ) : Prop := Rounds (1 / 2 ^ 24) (1 / 2 ^ 126) (2 ^ 127) fl

/-- Rounding to nearest with `p` bits and least exponent `e`. -/
noncomputable def roundBits (p : ℕ) (e : ℤ) (x : ℝ) : ℝ :=
  (round (x / 2 ^ (max (Int.log 2 |x|) e - p + 1)) : ℝ) * 2 ^ (max (Int.log 2 |x|) e - p + 1)

theorem roundBits_rounds (p : ℕ) (e : ℕ) (M : ℝ) : Rounds (1 / 2 ^ p) (1 / 2 ^ e) M (roundBits p (-e)) := by
  refine ⟨fun x _ => ?_, by simp [roundBits]⟩
  by_cases hx : x = 0
  · subst hx
    have h0 : roundBits p (-e) 0 = 0 := by simp [roundBits]
    rw [h0, sub_zero, abs_zero]
    positivity
  have h2 : (0 : ℝ) < 2 := by norm_num
  generalize hq : max (Int.log 2 |x|) (-(e : ℤ)) - (p : ℤ) + 1 = q
  have hpos : (0 : ℝ) < 2 ^ q := zpow_pos h2 q
  have h1 : |roundBits p (-e) x - x| ≤ 2 ^ q / 2 := by
    unfold roundBits
    rw [hq]
    have : (round (x / 2 ^ q) : ℝ) * 2 ^ q - x = (round (x / 2 ^ q) - x / 2 ^ q) * 2 ^ q := by field_simp
    rw [this, abs_mul, abs_of_pos hpos]
    have := abs_sub_round (x / (2 : ℝ) ^ q)
    rw [abs_sub_comm] at this
    nlinarith
  refine h1.trans ?_
  have h3 : (2 : ℝ) ^ q / 2 = 1 / 2 ^ p * 2 ^ (max (Int.log 2 |x|) (-(e : ℤ))) := by
    rw [← hq, zpow_add₀ h2.ne', zpow_sub₀ h2.ne', zpow_natCast, zpow_one]
    field_simp
  rw [h3]
  refine mul_le_mul_of_nonneg_left ?_ (by positivity)
  rcases le_total (Int.log 2 |x|) (-(e : ℤ)) with h | h
  · rw [max_eq_right h, zpow_neg, zpow_natCast, ← one_div]
    exact le_max_right _ _
  · rw [max_eq_left h]
    have := Int.zpow_log_le_self (b := 2) (r := |x|) (by norm_num) (abs_pos.2 hx)
    exact le_trans (by exact_mod_cast this) (le_max_left _ _)

/-- Whole numbers with up to `p` bits are not rounded. -/
theorem roundBits_int (p : ℕ) (hp : 0 < p) (e : ℕ) (n : ℤ) (hn : |n| < 2 ^ p) : roundBits p (-e) n = n := by
  by_cases h0 : n = 0
  · subst h0
    simp [roundBits]
  have hpos : (0 : ℝ) < |(n : ℝ)| := abs_pos.2 (by exact_mod_cast h0)
  have hlog : Int.log 2 |(n : ℝ)| < p := by
    have h1 := Int.zpow_log_le_self (b := 2) (r := |(n : ℝ)|) (by norm_num) hpos
    have h2 : |(n : ℝ)| < 2 ^ (p : ℤ) := by
      rw [zpow_natCast]
      exact_mod_cast hn
    have h3 : (2 : ℝ) ^ Int.log 2 |(n : ℝ)| < 2 ^ (p : ℤ) := lt_of_le_of_lt (by exact_mod_cast h1) h2
    exact (zpow_lt_zpow_iff_right₀ (by norm_num)).1 h3
  obtain ⟨k, hk⟩ : ∃ k : ℕ, max (Int.log 2 |(n : ℝ)|) (-(e : ℤ)) - (p : ℤ) + 1 = -(k : ℤ) := by
    refine ⟨(-(max (Int.log 2 |(n : ℝ)|) (-(e : ℤ)) - (p : ℤ) + 1)).toNat, ?_⟩
    have : max (Int.log 2 |(n : ℝ)|) (-(e : ℤ)) - (p : ℤ) + 1 ≤ 0 := by
      rcases le_total (Int.log 2 |(n : ℝ)|) (-(e : ℤ)) with h | h
      · rw [max_eq_right h]; omega
      · rw [max_eq_left h]; omega
    omega
  unfold roundBits
  rw [hk, zpow_neg, zpow_natCast]
  have : (n : ℝ) / (2 ^ k)⁻¹ = ((n * 2 ^ k : ℤ) : ℝ) := by
    push_cast
    rw [div_inv_eq_mul]
  rw [this, round_intCast]
  push_cast
  field_simp

namespace Rounds

variable {u m M : ℝ} {fl : ℝ → ℝ}

theorem abs_err (h : Rounds u m M fl) (hu : 0 ≤ u) {x B : ℝ} (hx : |x| ≤ B) (hm : m ≤ B) (hM : B ≤ M) : |fl x - x| ≤ u * B :=
  (h.err x (hx.trans hM)).trans (mul_le_mul_of_nonneg_left (max_le hx hm) hu)

end Rounds

/-- A dot product of three terms as numpy, or a library that it uses, may compute it: the terms are added in any order, and products are rounded, or not (fused multiply and
add). -/
def Dot3 (fl : ℝ → ℝ) (a b : Fin 3 → ℝ) (r : ℝ) : Prop :=
  ∃ (σ : Equiv.Perm (Fin 3)) (p : Fin 3 → ℝ), (∀ i, p i = fl (a i * b i) ∨ p i = a i * b i) ∧ r = fl (fl (p (σ 0) + p (σ 1)) + p (σ 2))

theorem dot3_err {u m M : ℝ} {fl : ℝ → ℝ} (h : Rounds u m M fl) (hu : 0 ≤ u) (hu' : u ≤ 1 / 1000) {a b : Fin 3 → ℝ} {r B : ℝ} (hr : Dot3 fl a b r)
    (hB : ∀ i, |a i * b i| ≤ B) (hm : m ≤ B) (hB0 : 0 ≤ B) (hM : 4 * B ≤ M) : |r - ∑ i, a i * b i| ≤ 9 * (u * B) := by
  obtain ⟨σ, p, hp, rfl⟩ := hr
  have he : 0 ≤ u * B := mul_nonneg hu hB0
  have heB : u * B ≤ B / 1000 := by nlinarith
  have hperr : ∀ i, |p i - a i * b i| ≤ u * B := by
    intro i
    rcases hp i with h1 | h1
    · rw [h1]
      exact h.abs_err hu (hB i) hm (by linarith)
    · rw [h1, sub_self, abs_zero]
      exact he
  have hsum : ∑ i, a i * b i = a (σ 0) * b (σ 0) + a (σ 1) * b (σ 1) + a (σ 2) * b (σ 2) := by
    rw [← Equiv.sum_comp σ (fun i => a i * b i), Fin.sum_univ_three]
  have e0 := abs_le.1 (hperr (σ 0))
  have e1 := abs_le.1 (hperr (σ 1))
  have e2 := abs_le.1 (hperr (σ 2))
  have b0 := abs_le.1 (hB (σ 0))
  have b1 := abs_le.1 (hB (σ 1))
  have b2 := abs_le.1 (hB (σ 2))
  have s1 := h.abs_err hu (x := p (σ 0) + p (σ 1)) (B := 2 * B + 2 * (u * B)) (abs_le.2 ⟨by linarith, by linarith⟩) (by linarith) (by linarith)
  have hue : u * (u * B) ≤ u * B / 1000 := by nlinarith
  have s1' := abs_le.1 s1
  have s2 := h.abs_err hu (x := fl (p (σ 0) + p (σ 1)) + p (σ 2)) (B := 3 * B + 6 * (u * B))
    (abs_le.2 ⟨by nlinarith, by nlinarith⟩) (by linarith) (by linarith)
  have s2' := abs_le.1 s2
  rw [hsum]
  refine abs_le.2 ⟨?_, ?_⟩ <;> nlinarith

/-- A quotient of numbers that are known up to `e`. -/
theorem div_err {x y x' y' e Q : ℝ} (hx : |x' - x| ≤ e) (hy : |y' - y| ≤ e) (hy0 : 0 < y) (hq : |x / y| ≤ Q) (he : e ≤ y / 100) :
    |x' / y' - x / y| ≤ 102 / 100 * (e * (1 + Q) / y) := by
  have he0 : 0 ≤ e := (abs_nonneg _).trans hx
  have hQ0 : 0 ≤ Q := (abs_nonneg _).trans hq
  have hy1 := abs_le.1 hy
  have hy' : 99 / 100 * y ≤ y' := by linarith
  have hy'0 : 0 < y' := by linarith
  have h1 : x' / y' - x / y = ((x' - x) - (x / y) * (y' - y)) / y' := by field_simp; ring
  rw [h1, abs_div, abs_of_pos hy'0, div_le_iff₀ hy'0]
  have h2 : |(x' - x) - (x / y) * (y' - y)| ≤ e * (1 + Q) := by
    refine (abs_sub _ _).trans ?_
    rw [abs_mul]
    have := mul_le_mul hq hy (abs_nonneg _) hQ0
    linarith
  refine h2.trans ?_
  have h3 : 0 ≤ e * (1 + Q) := by positivity
  rw [mul_div_assoc', div_mul_eq_mul_div, le_div_iff₀ hy0]
  nlinarith

end Verif
