import Verif.Base.Rounding
import Verif.Frame.Pinhole
import Verif.Ortho.Model

/-!
# C90: rounding moves pixels by less than interpolation does

`world_to_pixel` and `remap` with rounding, for pinhole cameras.
-/

set_option autoImplicit false

namespace Verif.Frame

open Matrix

noncomputable section

/-! ## Model -/

/-- `world_to_pixel` for one point in `float64`, orthority/camera.py:831-840 and 789-792: `xyz - self._T`, `self._R.T.dot(...)`, `xyz_ / xyz_[2]` and
`self._K_undistort.dot(xyz_)[:2]`, rounding each result.  The arrays are of numbers in `float64`, on which nothing depends here. -/
def W2p64 (fl : ℝ → ℝ) (K R : M3) (T X : V3) (ji : ℝ × ℝ) : Prop :=
  ∃ d y q : V3, (∀ i, d i = fl (X i - T i)) ∧ (∀ k, Dot3 fl (fun i => R i k) d (y k)) ∧ (∀ k, q k = fl (y k / y 2)) ∧
    Dot3 fl (K 0) q ji.1 ∧ Dot3 fl (K 1) q ji.2

/-- `transform * (x, y)` of the `affine` package in `float64`. -/
def flApply (fl : ℝ → ℝ) (t : Affine ℝ) (x y : ℝ) : ℝ × ℝ :=
  (fl (fl (fl (t.a * x) + fl (t.b * y)) + t.c), fl (fl (fl (t.d * x) + fl (t.e * y)) + t.f))

/-- `s * t` of the `affine` package in `float64`. -/
def flMul (fl : ℝ → ℝ) (s t : Affine ℝ) : Affine ℝ where
  a := fl (fl (s.a * t.a) + fl (s.b * t.d))
  b := fl (fl (s.a * t.b) + fl (s.b * t.e))
  c := fl (fl (fl (s.a * t.c) + fl (s.b * t.f)) + s.c)
  d := fl (fl (s.d * t.a) + fl (s.e * t.d))
  e := fl (fl (s.d * t.b) + fl (s.e * t.e))
  f := fl (fl (fl (s.d * t.c) + fl (s.e * t.f)) + s.f)

/-- `rasterio.windows.transform(window, transform)` in `float64`. -/
def flWindow (fl : ℝ → ℝ) (t : Affine ℝ) (col row : ℝ) : Affine ℝ :=
  flMul fl (Affine.translation (fl ((flApply fl t col row).1 - t.c)) (fl ((flApply fl t col row).2 - t.f))) t

/-- The world (x, y) of a pixel of a tile in `float64`: orthority/ortho.py:421-426 for the grid of the first tile and 363-369 for the tile with offsets `col` and `row`. -/
def tilePos64 (fl : ℝ → ℝ) (t : Affine ℝ) (col row : ℕ) (j i : ℕ) : ℝ × ℝ :=
  let init := flApply fl (flMul fl t (Affine.translation (1 / 2) (1 / 2))) j i
  let tt := flWindow fl t col row
  (fl (init.1 + fl (tt.c - t.c)), fl (init.2 + fl (tt.f - t.f)))

/-! ## Specification -/

/-- The exact pixel of a world position, for a camera with the intrinsic values `f` and `cxy`, rotation `R` and position `T`. -/
def exactPix (f cxy : ℝ × ℝ) (R : M3) (T P : V3) : ℝ × ℝ :=
  let x := Rᵀ *ᵥ (P - T)
  (f.1 * (x 0 / x 2) + cxy.1, f.2 * (x 1 / x 2) + cxy.2)

/-! ## Lemmas -/

/-- One coordinate of `tilePos64`, for transforms without rotation. -/
def pos1 (fl : ℝ → ℝ) (a c j col : ℝ) : ℝ :=
  fl (fl (fl (fl (a * j)) + fl (fl (fl (a * (1 / 2))) + c)) + fl (fl (c + fl (fl (fl (fl (a * col)) + c) - c)) - c))

theorem pos1_err {u m M : ℝ} {fl : ℝ → ℝ} (h : Rounds u m M fl) (hu : 0 ≤ u) (hu' : u ≤ 1 / 1000) {a c j col X : ℝ} (hm : m ≤ X) (hX : 0 < X) (hM : 10 * X ≤ M)
    (hc : |c| ≤ X) (hj : |a * j| ≤ X) (h2 : |a * (1 / 2)| ≤ X) (hcol : |a * col| ≤ X) : |pos1 fl a c j col - (a * (col + j + 1 / 2) + c)| ≤ 25 * (u * X) := by
  have heX : u * X ≤ X / 1000 := by nlinarith
  have he : 0 ≤ u * X := mul_nonneg hu hX.le
  have step : ∀ (k x : ℝ), 0 ≤ k → k ≤ 8 → |x| ≤ k * X + X / 10 → m ≤ k * X + X / 10 → |fl x - x| ≤ k * (u * X) + (u * X) / 10 := by
    intro k x hk0 hk8 hx hmk
    have := h.abs_err hu hx hmk (by nlinarith)
    linarith [show u * (k * X + X / 10) = k * (u * X) + (u * X) / 10 by ring]
  have hcc := abs_le.1 hc
  have hjj := abs_le.1 hj
  have h22 := abs_le.1 h2
  have hcl := abs_le.1 hcol
  have hmk : ∀ k : ℝ, 1 ≤ k → m ≤ k * X + X / 10 := fun k hk => by nlinarith
  have p1 := abs_le.1 (step 1 (a * j) (by norm_num) (by norm_num) (abs_le.2 ⟨by linarith, by linarith⟩) (hmk 1 le_rfl))
  have p2 := abs_le.1 (step 1 (fl (a * j)) (by norm_num) (by norm_num) (abs_le.2 ⟨by linarith, by linarith⟩) (hmk 1 le_rfl))
  have s1 := abs_le.1 (step 1 (a * (1 / 2)) (by norm_num) (by norm_num) (abs_le.2 ⟨by linarith, by linarith⟩) (hmk 1 le_rfl))
  have s2 := abs_le.1 (step 1 (fl (a * (1 / 2))) (by norm_num) (by norm_num) (abs_le.2 ⟨by linarith, by linarith⟩) (hmk 1 le_rfl))
  have c1 := abs_le.1 (step 2 (fl (fl (a * (1 / 2))) + c) (by norm_num) (by norm_num) (abs_le.2 ⟨by linarith, by linarith⟩) (hmk 2 (by norm_num)))
  have x0 := abs_le.1 (step 3 (fl (fl (a * j)) + fl (fl (fl (a * (1 / 2))) + c)) (by norm_num) (by norm_num) (abs_le.2 ⟨by linarith, by linarith⟩) (hmk 3 (by norm_num)))
  have w1 := abs_le.1 (step 1 (a * col) (by norm_num) (by norm_num) (abs_le.2 ⟨by linarith, by linarith⟩) (hmk 1 le_rfl))
  have w2 := abs_le.1 (step 1 (fl (a * col)) (by norm_num) (by norm_num) (abs_le.2 ⟨by linarith, by linarith⟩) (hmk 1 le_rfl))
  have w3 := abs_le.1 (step 2 (fl (fl (a * col)) + c) (by norm_num) (by norm_num) (abs_le.2 ⟨by linarith, by linarith⟩) (hmk 2 (by norm_num)))
  have w4 := abs_le.1 (step 1 (fl (fl (fl (a * col)) + c) - c) (by norm_num) (by norm_num) (abs_le.2 ⟨by linarith, by linarith⟩) (hmk 1 le_rfl))
  have w5 := abs_le.1 (step 2 (c + fl (fl (fl (fl (a * col)) + c) - c)) (by norm_num) (by norm_num) (abs_le.2 ⟨by linarith, by linarith⟩) (hmk 2 (by norm_num)))
  have w6 := abs_le.1 (step 1 (fl (c + fl (fl (fl (fl (a * col)) + c) - c)) - c) (by norm_num) (by norm_num) (abs_le.2 ⟨by linarith, by linarith⟩) (hmk 1 le_rfl))
  have o := abs_le.1 (step 4 (fl (fl (fl (a * j)) + fl (fl (fl (a * (1 / 2))) + c)) + fl (fl (c + fl (fl (fl (fl (a * col)) + c) - c)) - c)) (by norm_num) (by norm_num)
    (abs_le.2 ⟨by linarith, by linarith⟩) (hmk 4 (by norm_num)))
  have e1 : a * (col + j + 1 / 2) + c = a * col + a * j + a * (1 / 2) + c := by ring
  rw [e1]
  unfold pos1
  exact abs_le.2 ⟨by linarith, by linarith⟩

theorem tilePos64_eq {u m M : ℝ} {fl : ℝ → ℝ} (h : Rounds u m M fl) {t : Affine ℝ} (hb : t.b = 0) (hd : t.d = 0) (ha : fl t.a = t.a) (he : fl t.e = t.e)
    (hc : fl t.c = t.c) (hf : fl t.f = t.f) (col row j i : ℕ) : tilePos64 fl t col row j i = (pos1 fl t.a t.c j col, pos1 fl t.e t.f i row) := by
  simp [tilePos64, flWindow, flMul, flApply, Affine.translation, pos1, hb, hd, ha, he, hc, hf, h.zero]

theorem camCoords_apply (R : M3) (T X : V3) (k : Fin 3) : (Rᵀ *ᵥ (X - T)) k = ∑ i, R i k * (X i - T i) := by
  simp [Matrix.mulVec, dotProduct]

theorem abs_sum3 (f : Fin 3 → ℝ) {B : ℝ} (h : ∀ i, |f i| ≤ B) : |∑ i, f i| ≤ 3 * B := by
  rw [Fin.sum_univ_three]
  have h0 := abs_le.1 (h 0)
  have h1 := abs_le.1 (h 1)
  have h2 := abs_le.1 (h 2)
  exact abs_le.2 ⟨by linarith, by linarith⟩

/-- Bounds that make overflow and underflow impossible. -/
structure Scale (m M D c F C : ℝ) : Prop where
  m0 : 0 < m
  mD : m ≤ D
  m1 : m ≤ 1
  mF : m ≤ F
  mC : m ≤ C
  DM : 10 * D ≤ M
  c0 : 0 < c
  c1 : c ≤ 1
  cM : 10 / c ≤ M
  FM : 100 * (F / c + C) ≤ M

theorem coord_err {u m M : ℝ} {fl : ℝ → ℝ} (h : Rounds u m M fl) (hu : 0 ≤ u) {R : M3} {T X : V3} {D c F C : ℝ} (hs : Scale m M D c F C) (huc : 2000 * u ≤ c)
    (hR : ∀ i k, |R i k| ≤ 1) (hD : ∀ i, |X i - T i| ≤ D) {d y : V3} (hd : ∀ i, d i = fl (X i - T i)) (hy : ∀ k, Dot3 fl (fun i => R i k) d (y k)) (k : Fin 3) :
    |y k - (Rᵀ *ᵥ (X - T)) k| ≤ 13 * (u * D) := by
  have hD0 : 0 < D := hs.m0.trans_le hs.mD
  have hu1 : u ≤ 1 / 1000 := by linarith [hs.c1]
  have he : 0 ≤ u * D := mul_nonneg hu hD0.le
  have heD : u * D ≤ D / 1000 := by nlinarith
  have hue : u * (u * D) ≤ u * D / 1000 := by nlinarith
  have hderr : ∀ i, |d i - (X i - T i)| ≤ u * D := fun i => by
    rw [hd i]
    exact h.abs_err hu (hD i) hs.mD (by linarith [hs.DM])
  have hdB : ∀ i, |R i k * d i| ≤ D + u * D := by
    intro i
    rw [abs_mul]
    have h1 := abs_le.1 (hderr i)
    have h2 := abs_le.1 (hD i)
    have h3 : |d i| ≤ D + u * D := abs_le.2 ⟨by linarith, by linarith⟩
    calc |R i k| * |d i| ≤ 1 * (D + u * D) := mul_le_mul (hR i k) h3 (abs_nonneg _) zero_le_one
      _ = D + u * D := one_mul _
  have h1 := dot3_err h hu hu1 (hy k) hdB (by linarith [hs.mD]) (by linarith) (by linarith [hs.DM])
  have h2 : |∑ i, R i k * d i - (Rᵀ *ᵥ (X - T)) k| ≤ 3 * (u * D) := by
    rw [camCoords_apply, ← Finset.sum_sub_distrib]
    refine abs_sum3 _ fun i => ?_
    rw [← mul_sub, abs_mul]
    calc |R i k| * |d i - (X i - T i)| ≤ 1 * (u * D) := mul_le_mul (hR i k) (hderr i) (abs_nonneg _) zero_le_one
      _ = u * D := one_mul _
  have h3 := abs_le.1 h1
  have h4 := abs_le.1 h2
  refine abs_le.2 ⟨?_, ?_⟩ <;> nlinarith

theorem abs_coord {R : M3} {T X : V3} {D : ℝ} (hR : ∀ i k, |R i k| ≤ 1) (hD : ∀ i, |X i - T i| ≤ D) (k : Fin 3) : |(Rᵀ *ᵥ (X - T)) k| ≤ 3 * D := by
  rw [camCoords_apply]
  refine abs_sum3 _ fun i => ?_
  rw [abs_mul]
  calc |R i k| * |X i - T i| ≤ 1 * D := mul_le_mul (hR i k) (hD i) (abs_nonneg _) zero_le_one
    _ = D := one_mul _

/-- The error of the coordinates at unit depth. -/
theorem unit_err {u m M : ℝ} {fl : ℝ → ℝ} (h : Rounds u m M fl) (hu : 0 ≤ u) {R : M3} {T X : V3} {D c F C : ℝ} (hs : Scale m M D c F C) (huc : 2000 * u ≤ c)
    (hR : ∀ i k, |R i k| ≤ 1) (hD : ∀ i, |X i - T i| ≤ D) (hdepth : c * D ≤ (Rᵀ *ᵥ (X - T)) 2) {d y q : V3} (hd : ∀ i, d i = fl (X i - T i))
    (hy : ∀ k, Dot3 fl (fun i => R i k) d (y k)) (hq : ∀ k, q k = fl (y k / y 2)) (k : Fin 3) :
    |(Rᵀ *ᵥ (X - T)) k / (Rᵀ *ᵥ (X - T)) 2| ≤ 3 / c ∧ |q k - (Rᵀ *ᵥ (X - T)) k / (Rᵀ *ᵥ (X - T)) 2| ≤ 60 * (u / c ^ 2) := by
  have hD0 : 0 < D := hs.m0.trans_le hs.mD
  have hc0 := hs.c0
  have hc1 := hs.c1
  have hY2 : 0 < (Rᵀ *ᵥ (X - T)) 2 := (mul_pos hc0 hD0).trans_le hdepth
  have hQ : |(Rᵀ *ᵥ (X - T)) k / (Rᵀ *ᵥ (X - T)) 2| ≤ 3 / c := by
    rw [abs_div, abs_of_pos hY2, div_le_iff₀ hY2]
    have h1 := abs_coord hR hD k
    have h2 : 3 * D ≤ 3 / c * (Rᵀ *ᵥ (X - T)) 2 := by
      rw [div_mul_eq_mul_div, le_div_iff₀ hc0]
      linarith
    exact h1.trans h2
  refine ⟨hQ, ?_⟩
  have he : 13 * (u * D) ≤ (Rᵀ *ᵥ (X - T)) 2 / 100 := by nlinarith
  have h1 := div_err (coord_err h hu hs huc hR hD hd hy k) (coord_err h hu hs huc hR hD hd hy 2) hY2 hQ he
  have h2 : 13 * (u * D) * (1 + 3 / c) / (Rᵀ *ᵥ (X - T)) 2 ≤ 52 * (u / c ^ 2) := by
    rw [div_le_iff₀ hY2]
    have h3 : 13 * (u * D) * (1 + 3 / c) ≤ 13 * (u * D) * (4 / c) := by
      refine mul_le_mul_of_nonneg_left ?_ (by positivity)
      rw [le_div_iff₀ hc0]
      field_simp
      linarith
    refine h3.trans ?_
    have h4 : 13 * (u * D) * (4 / c) = 52 * (u / c ^ 2) * (c * D) := by field_simp; ring
    rw [h4]
    exact mul_le_mul_of_nonneg_left hdepth (by positivity)
  have huc2 : u / c ^ 2 ≤ 1 / (2000 * c) := by
    rw [div_le_div_iff₀ (by positivity) (by positivity)]
    nlinarith
  have huc1 : u / c ≤ u / c ^ 2 := by
    rw [div_le_div_iff₀ (by positivity) (by positivity)]
    nlinarith [mul_nonneg hu hc0.le]
  have hic : 1 / (2000 * c) = 1 / c / 2000 := by field_simp
  have h1c : 1 ≤ 1 / c := by rw [le_div_iff₀ hc0]; linarith
  have h3c : 3 / c = 3 * (1 / c) := by ring
  have h10 : 10 / c = 10 * (1 / c) := by ring
  have hM := hs.cM
  have h5 := abs_le.1 h1
  have h6 := abs_le.1 hQ
  have h7 := h.abs_err hu (x := y k / y 2) (B := 4 / c) (by
      rw [show 4 / c = 4 * (1 / c) by ring]
      refine abs_le.2 ⟨?_, ?_⟩ <;> linarith) (by
      rw [show 4 / c = 4 * (1 / c) by ring]
      linarith [hs.m1]) (by
      rw [show 4 / c = 4 * (1 / c) by ring]
      linarith)
  rw [← hq k] at h7
  have h8 : u * (4 / c) = 4 * (u / c) := by ring
  rw [h8] at h7
  have h9 := abs_le.1 h7
  refine abs_le.2 ⟨?_, ?_⟩ <;> linarith

/-- The third coordinate at unit depth. -/
theorem unit_two {u m M : ℝ} {fl : ℝ → ℝ} (h : Rounds u m M fl) (hu : 0 ≤ u) {R : M3} {T X : V3} {D c F C : ℝ} (hs : Scale m M D c F C) (huc : 2000 * u ≤ c)
    (hR : ∀ i k, |R i k| ≤ 1) (hD : ∀ i, |X i - T i| ≤ D) (hdepth : c * D ≤ (Rᵀ *ᵥ (X - T)) 2) {d y q : V3} (hd : ∀ i, d i = fl (X i - T i))
    (hy : ∀ k, Dot3 fl (fun i => R i k) d (y k)) (hq : ∀ k, q k = fl (y k / y 2)) : |q 2 - 1| ≤ u := by
  have hD0 : 0 < D := hs.m0.trans_le hs.mD
  have h1 := abs_le.1 (coord_err h hu hs huc hR hD hd hy 2)
  have h2 : 0 < y 2 := by nlinarith [hs.c0]
  have h3 := h.abs_err hu (x := y 2 / y 2) (B := 1) (by rw [div_self h2.ne', abs_one]) hs.m1 (by
    have : 1 ≤ 1 / c := by rw [le_div_iff₀ hs.c0]; linarith [hs.c1]
    have h10 : 10 / c = 10 * (1 / c) := by ring
    linarith [hs.cM])
  rw [← hq 2, div_self h2.ne', mul_one] at h3
  exact h3

/-- The error of a pixel coordinate. -/
theorem row_err {u m M : ℝ} {fl : ℝ → ℝ} (h : Rounds u m M fl) (hu : 0 ≤ u) {D c F C f c0 : ℝ} (hs : Scale m M D c F C) (huc : 2000 * u ≤ c) (hf : |f| ≤ F) (hc : |c0| ≤ C)
    {row Q q : V3} {k : Fin 3} {j : ℝ} (hrow : ∀ x : V3, ∑ i, row i * x i = f * x k + c0 * x 2) (hr0 : ∀ i, i ≠ 2 → |row i| ≤ F)
    (hr2 : row 2 = c0) (hQ : ∀ i, |Q i| ≤ 3 / c) (hq : ∀ i, |q i - Q i| ≤ 60 * (u / c ^ 2)) (hq2 : |q 2 - 1| ≤ u) (hj : Dot3 fl row q j) :
    |j - (f * Q k + c0)| ≤ u * (100 * (F / c ^ 2) + 20 * C) := by
  have hc0 := hs.c0
  have hc1 := hs.c1
  have hF0 : 0 < F := hs.m0.trans_le hs.mF
  have hC0 : 0 < C := hs.m0.trans_le hs.mC
  have hu1 : u ≤ 1 / 1000 := by linarith
  have h1c : 1 ≤ 1 / c := by rw [le_div_iff₀ hc0]; linarith
  have huc2 : u / c ^ 2 ≤ 1 / c / 2000 := by
    rw [div_div, div_le_div_iff₀ (by positivity) (by positivity)]
    nlinarith
  have hFc : F ≤ F / c := by
    rw [le_div_iff₀ hc0]
    nlinarith
  have hFc2 : F / c ≤ F / c ^ 2 := by
    rw [div_le_div_iff₀ (by positivity) (by positivity)]
    nlinarith [mul_pos hF0 hc0]
  have hqB : ∀ i, |q i| ≤ 4 / c := by
    intro i
    have h1 := abs_le.1 (hq i)
    have h2 := abs_le.1 (hQ i)
    rw [show 3 / c = 3 * (1 / c) by ring] at h2
    rw [show 4 / c = 4 * (1 / c) by ring]
    exact abs_le.2 ⟨by linarith, by linarith⟩
  have hB : ∀ i, |row i * q i| ≤ 4 * (F / c) + 2 * C := by
    intro i
    rw [abs_mul]
    by_cases hi : i = 2
    · subst hi
      rw [hr2]
      have h1 := abs_le.1 hq2
      have h2 : |q 2| ≤ 2 := abs_le.2 ⟨by linarith, by linarith⟩
      have := mul_le_mul hc h2 (abs_nonneg _) hC0.le
      have : 0 ≤ F / c := by positivity
      linarith
    · have := mul_le_mul (hr0 i hi) (hqB i) (abs_nonneg _) hF0.le
      have h4 : F * (4 / c) = 4 * (F / c) := by ring
      linarith
  have hFM := hs.FM
  have h1 := dot3_err h hu hu1 hj hB (by linarith [hs.mC, div_pos hF0 hc0]) (by positivity) (by linarith [div_pos hF0 hc0])
  rw [hrow] at h1
  have h2 : |f * (q k - Q k)| ≤ F * (60 * (u / c ^ 2)) := by
    rw [abs_mul]
    exact mul_le_mul hf (hq k) (abs_nonneg _) hF0.le
  have h3 : |c0 * (q 2 - 1)| ≤ C * u := by
    rw [abs_mul]
    exact mul_le_mul hc hq2 (abs_nonneg _) hC0.le
  have h4 : F * (60 * (u / c ^ 2)) = 60 * (u * (F / c ^ 2)) := by ring
  have h5 : u * (F / c) ≤ u * (F / c ^ 2) := mul_le_mul_of_nonneg_left hFc2 hu
  have h6 : 0 ≤ u * (F / c ^ 2) := by positivity
  have h7 : 0 ≤ u * C := by positivity
  have a1 := abs_le.1 h1
  have a2 := abs_le.1 h2
  have a3 := abs_le.1 h3
  have e1 : f * (q k - Q k) = f * q k - f * Q k := by ring
  have e2 : c0 * (q 2 - 1) = c0 * q 2 - c0 := by ring
  refine abs_le.2 ⟨?_, ?_⟩ <;> nlinarith

/-! ## Theorems -/

/-- C90: the pixel that `world_to_pixel` of a pinhole camera computes in `float64`, for a point whose depth is at least `c` times each of its distances along the axes from the camera, is
within a small part of a pixel of the exact one. -/
theorem C90_world_to_pixel (fl : ℝ → ℝ) (hfl : Rounds64 fl) (R : M3) (T X : V3) (f cxy : ℝ × ℝ) (ji : ℝ × ℝ) (h : W2p64 fl (kMat f cxy) R T X ji) (D c F C : ℝ)
    (hD : 1 / 2 ^ 100 ≤ D ∧ D ≤ 2 ^ 100) (hc : 1 / 2 ^ 20 ≤ c ∧ c ≤ 1) (hF : 1 ≤ F ∧ F ≤ 2 ^ 100) (hC : 1 ≤ C ∧ C ≤ 2 ^ 100)
    (hR : ∀ i k, |R i k| ≤ 1) (hXT : ∀ i, |X i - T i| ≤ D) (hdepth : c * D ≤ (Rᵀ *ᵥ (X - T)) 2) (hf : |f.1| ≤ F ∧ |f.2| ≤ F) (hcxy : |cxy.1| ≤ C ∧ |cxy.2| ≤ C) :
    let x := Rᵀ *ᵥ (X - T)
    |ji.1 - (f.1 * (x 0 / x 2) + cxy.1)| ≤ 1 / 2 ^ 53 * (100 * (F / c ^ 2) + 20 * C) ∧
      |ji.2 - (f.2 * (x 1 / x 2) + cxy.2)| ≤ 1 / 2 ^ 53 * (100 * (F / c ^ 2) + 20 * C) := by
  intro x
  obtain ⟨d, y, q, hd, hy, hq, h1, h2⟩ := h
  have hc0 : 0 < c := lt_of_lt_of_le (by positivity) hc.1
  have hcinv : 1 / c ≤ 2 ^ 20 := by
    rw [div_le_iff₀ hc0]
    have := hc.1
    rw [div_le_iff₀ (by positivity)] at this
    linarith
  have hs : Scale (1 / 2 ^ 1022) (2 ^ 1023) D c F C := by
    have hm : (1 : ℝ) / 2 ^ 1022 ≤ 1 / 2 ^ 100 := one_div_pow_le_one_div_pow_of_le (by norm_num) (by norm_num)
    have hm1 : (1 : ℝ) / 2 ^ 100 ≤ 1 := by rw [div_le_one (by positivity)]; exact one_le_pow₀ (by norm_num)
    have hM : (2 : ℝ) ^ 200 ≤ 2 ^ 1023 := pow_le_pow_right₀ (by norm_num) (by norm_num)
    have hFc : F / c ≤ 2 ^ 120 := by
      calc F / c = F * (1 / c) := by ring
        _ ≤ 2 ^ 100 * 2 ^ 20 := mul_le_mul hF.2 hcinv (by positivity) (by positivity)
        _ = 2 ^ 120 := by rw [← pow_add]
    refine ⟨by positivity, hm.trans hD.1, hm.trans hm1, (hm.trans hm1).trans hF.1, (hm.trans hm1).trans hC.1, ?_, hc0, hc.2, ?_, ?_⟩
    · refine le_trans ?_ hM
      have := hD.2
      norm_num at this ⊢
      linarith
    · refine le_trans ?_ hM
      rw [show 10 / c = 10 * (1 / c) by ring]
      norm_num at hcinv ⊢
      linarith
    · refine le_trans ?_ hM
      have := hC.2
      norm_num at this hFc ⊢
      linarith
  have huc : 2000 * (1 / 2 ^ 53 : ℝ) ≤ c := le_trans (by norm_num) hc.1
  have hu : (0 : ℝ) ≤ 1 / 2 ^ 53 := by positivity
  have hk := unit_err hfl hu hs huc hR hXT hdepth hd hy hq
  have h2' := unit_two hfl hu hs huc hR hXT hdepth hd hy hq
  have hF0 : 0 ≤ F := by linarith [hF.1]
  constructor
  · refine row_err hfl hu hs huc hf.1 hcxy.1 (row := kMat f cxy 0) (Q := fun k => x k / x 2) (k := 0) ?_ ?_ rfl (fun k => (hk k).1) (fun k => (hk k).2) h2' h1
    · intro x
      simp [Fin.sum_univ_three, kMat]
    · intro i hi
      fin_cases i
      · exact hf.1
      · simpa [kMat] using hF0
      · exact absurd rfl hi
  · refine row_err hfl hu hs huc hf.2 hcxy.2 (row := kMat f cxy 1) (Q := fun k => x k / x 2) (k := 1) ?_ ?_ rfl (fun k => (hk k).1) (fun k => (hk k).2) h2' h2
    · intro x
      simp [Fin.sum_univ_three, kMat]
    · intro i hi
      fin_cases i
      · simpa [kMat] using hF0
      · exact hf.2
      · exact absurd rfl hi

/-- C90: the world coordinates of the centre of a pixel of a tile of the ortho, as `_remap` computes them in `float64`. -/
theorem C90_grid (fl : ℝ → ℝ) (hfl : Rounds64 fl) (t : Affine ℝ) (hb : t.b = 0) (hd : t.d = 0) (ha : fl t.a = t.a) (he : fl t.e = t.e) (hc : fl t.c = t.c)
    (hf : fl t.f = t.f) (w h : ℕ) (col row j i : ℕ) (hcol : col + j < w) (hrow : row + i < h) (X : ℝ) (hX : 1 ≤ X ∧ X ≤ 2 ^ 100) (hc' : |t.c| ≤ X) (hf' : |t.f| ≤ X)
    (hw : |t.a| * w ≤ X) (hh : |t.e| * h ≤ X) :
    |(tilePos64 fl t col row j i).1 - (t.a * (col + j + 1 / 2) + t.c)| ≤ 1 / 2 ^ 53 * (25 * X) ∧
      |(tilePos64 fl t col row j i).2 - (t.e * (row + i + 1 / 2) + t.f)| ≤ 1 / 2 ^ 53 * (25 * X) := by
  have hX0 : 0 < X := by linarith [hX.1]
  have hm : (1 : ℝ) / 2 ^ 1022 ≤ X := by
    refine le_trans ?_ hX.1
    rw [div_le_one (by positivity)]
    exact one_le_pow₀ (by norm_num)
  have hM : 10 * X ≤ 2 ^ 1023 := by
    have : (2 : ℝ) ^ 200 ≤ 2 ^ 1023 := pow_le_pow_right₀ (by norm_num) (by norm_num)
    have h2 := hX.2
    refine le_trans ?_ this
    norm_num at h2 ⊢
    linarith
  have key : ∀ (a : ℝ) (n k : ℕ), |a| * n ≤ X → k < n → |a * (k : ℝ)| ≤ X := by
    intro a n k hn hk
    rw [abs_mul, Nat.abs_cast]
    refine le_trans (mul_le_mul_of_nonneg_left ?_ (abs_nonneg _)) hn
    exact_mod_cast hk.le
  have key2 : ∀ (a : ℝ) (n k : ℕ), |a| * n ≤ X → k < n → |a * (1 / 2)| ≤ X := by
    intro a n k hn hk
    rw [abs_mul]
    refine le_trans (mul_le_mul_of_nonneg_left ?_ (abs_nonneg _)) hn
    have : (1 : ℝ) ≤ n := by exact_mod_cast (Nat.zero_le k).trans_lt hk
    rw [abs_of_pos (by norm_num)]
    linarith
  rw [tilePos64_eq hfl hb hd ha he hc hf]
  constructor
  · have := pos1_err hfl (by positivity) (by norm_num) hm hX0 hM hc' (key t.a w j hw (by omega)) (key2 t.a w _ hw hcol) (key t.a w col hw (by omega))
    linarith
  · have := pos1_err hfl (by positivity) (by norm_num) hm hX0 hM hf' (key t.e h i hh (by omega)) (key2 t.e h _ hh hrow) (key t.e h row hh (by omega))
    linarith

theorem shift_err {R : M3} {T P P' : V3} {δ : ℝ} (hR : ∀ i k, |R i k| ≤ 1) (h0 : |P' 0 - P 0| ≤ δ) (h1 : |P' 1 - P 1| ≤ δ) (h2 : P' 2 = P 2) (k : Fin 3) :
    |(Rᵀ *ᵥ (P' - T)) k - (Rᵀ *ᵥ (P - T)) k| ≤ 2 * δ := by
  have e : (Rᵀ *ᵥ (P' - T)) k - (Rᵀ *ᵥ (P - T)) k = R 0 k * (P' 0 - P 0) + R 1 k * (P' 1 - P 1) := by
    rw [camCoords_apply, camCoords_apply, Fin.sum_univ_three, Fin.sum_univ_three, h2]
    ring
  have a0 : |R 0 k * (P' 0 - P 0)| ≤ δ := by
    rw [abs_mul]
    nlinarith [hR 0 k, abs_nonneg (R 0 k), abs_nonneg (P' 0 - P 0)]
  have a1 : |R 1 k * (P' 1 - P 1)| ≤ δ := by
    rw [abs_mul]
    nlinarith [hR 1 k, abs_nonneg (R 1 k), abs_nonneg (P' 1 - P 1)]
  rw [e]
  linarith [abs_add_le (R 0 k * (P' 0 - P 0)) (R 1 k * (P' 1 - P 1))]

theorem shift_scalar {x y x' y' δ D c F G f c0 : ℝ} (hx : |x' - x| ≤ 2 * δ) (hy : |y' - y| ≤ 2 * δ) (hxD : |x| ≤ 3 * D) (hc : 0 < c) (hc1 : c ≤ 1) (hD : 0 < D)
    (hdepth : c * D ≤ y) (hδ : 200 * δ ≤ c * D) (hf : |f| ≤ F) (hG : F ≤ G * y) : |(f * (x' / y') + c0) - (f * (x / y) + c0)| ≤ 9 * (δ * G / c) := by
  have hcD : 0 < c * D := mul_pos hc hD
  have hy0 : 0 < y := by linarith
  have hδ0 : 0 ≤ δ := by linarith [abs_nonneg (x' - x)]
  have hQ : |x / y| ≤ 3 / c := by
    rw [abs_div, abs_of_pos hy0, div_le_div_iff₀ hy0 hc]
    nlinarith
  have h := div_err hx hy hy0 hQ (by linarith)
  have hF0 : 0 ≤ F := (abs_nonneg f).trans hf
  have hG0 : 0 ≤ G := by
    by_contra hn
    nlinarith [mul_neg_of_neg_of_pos (not_le.1 hn) hy0]
  have h4 : 1 + 3 / c ≤ 4 / c := by
    rw [show (4 : ℝ) / c = 1 / c + 3 / c by ring]
    have : 1 ≤ 1 / c := by rw [le_div_iff₀ hc]; linarith
    linarith
  have hle : 102 / 100 * (2 * δ * (1 + 3 / c) / y) ≤ 9 * (δ / c / y) := by
    have e1 : 2 * δ * (1 + 3 / c) / y ≤ 2 * δ * (4 / c) / y := by
      apply div_le_div_of_nonneg_right _ hy0.le
      exact mul_le_mul_of_nonneg_left h4 (by linarith)
    have e2 : 2 * δ * (4 / c) / y = 8 * (δ / c / y) := by ring
    have e3 : 0 ≤ δ / c / y := by positivity
    linarith
  have e : (f * (x' / y') + c0) - (f * (x / y) + c0) = f * (x' / y' - x / y) := by ring
  rw [e, abs_mul]
  calc |f| * |x' / y' - x / y| ≤ (G * y) * (9 * (δ / c / y)) := mul_le_mul (hf.trans hG) (h.trans hle) (abs_nonneg _) (by positivity)
    _ = 9 * (δ * G / c) := by field_simp

theorem round32_err {fl32 : ℝ → ℝ} (hfl32 : Rounds32 fl32) {v v64 W E : ℝ} (hW : 1 ≤ W ∧ W ≤ 2 ^ 100) (hE1 : E ≤ 1) (hv : |v| ≤ W) (h64 : |v64 - v| ≤ E) :
    |fl32 v64 - v| ≤ E + (W + 1) / 2 ^ 24 := by
  have hv64 : |v64| ≤ W + 1 := by
    have := abs_sub_abs_le_abs_sub v64 v
    linarith
  have hm : (1 : ℝ) / 2 ^ 126 ≤ W + 1 := by
    have : (1 : ℝ) / 2 ^ 126 ≤ 1 := by rw [div_le_one (by positivity)]; exact one_le_pow₀ (by norm_num)
    linarith [hW.1]
  have hM : W + 1 ≤ 2 ^ 127 := by
    have := hW.2
    norm_num at this ⊢
    linarith
  have h32 := hfl32.abs_err (by positivity) hv64 hm hM
  have := abs_sub_le (fl32 v64) v64 v
  rw [show (W + 1) / 2 ^ 24 = 1 / 2 ^ 24 * (W + 1) by ring]
  linarith

theorem F105 {F c : ℝ} (hF : 0 ≤ F) (hc : 0 < c) : 100 * (F / (98 / 100 * c) ^ 2) ≤ 105 * (F / c ^ 2) := by
  have : 100 * (F / (98 / 100 * c) ^ 2) = 100 / (98 / 100) ^ 2 * (F / c ^ 2) := by field_simp
  rw [this]
  exact mul_le_mul_of_nonneg_right (by norm_num) (div_nonneg hF (by positivity))

theorem remap_err {fl : ℝ → ℝ} (hfl : Rounds64 fl) {P P' : V3} {δ : ℝ} (q0 : |P' 0 - P 0| ≤ δ) (q1 : |P' 1 - P 1| ≤ δ) (q2 : P' 2 = P 2)
    {R : M3} {T : V3} {f cxy : ℝ × ℝ} {D c F C G : ℝ} (hD : 1 / 2 ^ 100 ≤ D ∧ D ≤ 2 ^ 99) (hc : 1 / 2 ^ 19 ≤ c ∧ c ≤ 1) (hF : 1 ≤ F ∧ F ≤ 2 ^ 100) (hC : 1 ≤ C ∧ C ≤ 2 ^ 100)
    (hR : ∀ i k, |R i k| ≤ 1) (hPT : ∀ i, |P i - T i| ≤ D) (hdepth : c * D ≤ (Rᵀ *ᵥ (P - T)) 2) (hf : |f.1| ≤ F ∧ |f.2| ≤ F) (hcxy : |cxy.1| ≤ C ∧ |cxy.2| ≤ C)
    (hG : F ≤ G * (Rᵀ *ᵥ (P - T)) 2) (hδ200 : 200 * δ ≤ c * D) {ji : ℝ × ℝ} (hji : W2p64 fl (kMat f cxy) R T P' ji) :
    |ji.1 - (exactPix f cxy R T P).1| ≤ 1 / 2 ^ 53 * (105 * (F / c ^ 2) + 20 * C) + 9 * (δ * G / c) ∧
      |ji.2 - (exactPix f cxy R T P).2| ≤ 1 / 2 ^ 53 * (105 * (F / c ^ 2) + 20 * C) + 9 * (δ * G / c) := by
  have hc0 : 0 < c := lt_of_lt_of_le (by positivity) hc.1
  have hD0 : 0 < D := lt_of_lt_of_le (by positivity) hD.1
  have hcD : 0 < c * D := mul_pos hc0 hD0
  have hδ0 : 0 ≤ δ := (abs_nonneg _).trans q0
  have hδD : 200 * δ ≤ D := hδ200.trans (mul_le_of_le_one_left hD0.le hc.2)
  have hs := shift_err (T := T) hR q0 q1 q2
  have hP'T : ∀ i, |P' i - T i| ≤ 101 / 100 * D := by
    intro i
    have h1 : |P' i - P i| ≤ δ := by
      fin_cases i
      · exact q0
      · exact q1
      · change |P' 2 - P 2| ≤ δ
        rw [q2]; simpa using hδ0
    have := abs_sub_le (P' i) (P i) (T i)
    linarith [hPT i]
  have hdepth' : (98 / 100 * c) * (101 / 100 * D) ≤ (Rᵀ *ᵥ (P' - T)) 2 := by
    have := abs_le.1 (hs 2)
    rw [show (98 / 100 * c) * (101 / 100 * D) = 9898 / 10000 * (c * D) by ring]
    linarith
  have hc98 : (1 : ℝ) / 2 ^ 20 ≤ 98 / 100 * c := by
    have := hc.1
    norm_num at this ⊢
    linarith
  have hD' : 101 / 100 * D ≤ 2 ^ 100 := by have := hD.2; norm_num at this ⊢; linarith
  have hmain := C90_world_to_pixel fl hfl R T P' f cxy ji hji (101 / 100 * D) (98 / 100 * c) F C
    ⟨by linarith [hD.1], hD'⟩ ⟨hc98, by linarith [hc.2]⟩ hF hC hR hP'T hdepth' hf hcxy
  have s0 := shift_scalar (c0 := cxy.1) (hs 0) (hs 2) (abs_coord hR hPT 0) hc0 hc.2 hD0 hdepth hδ200 hf.1 hG
  have s1 := shift_scalar (c0 := cxy.2) (hs 1) (hs 2) (abs_coord hR hPT 1) hc0 hc.2 hD0 hdepth hδ200 hf.2 hG
  have hsum : 1 / 2 ^ 53 * (100 * (F / (98 / 100 * c) ^ 2) + 20 * C) + 9 * (δ * G / c) ≤ 1 / 2 ^ 53 * (105 * (F / c ^ 2) + 20 * C) + 9 * (δ * G / c) :=
    add_le_add_left (mul_le_mul_of_nonneg_left (add_le_add_left (F105 (by linarith [hF.1]) hc0) _) (by positivity)) _
  exact ⟨le_trans ((abs_sub_le _ _ _).trans (add_le_add hmain.1 s0)) hsum, le_trans ((abs_sub_le _ _ _).trans (add_le_add hmain.2 s1)) hsum⟩

/-- C90: `_remap` samples the source image at the exact place of the centre of the ortho pixel, less a small part of a pixel.  `X` bounds the world coordinates of the ortho, `D` the
distance of the pixel from the camera along each axis, `G` the number of source pixels per world unit, `F` the focal length, `C` the principal point and `W` the source pixel coordinates. -/
theorem C90_remap (fl : ℝ → ℝ) (hfl : Rounds64 fl) (fl32 : ℝ → ℝ) (hfl32 : Rounds32 fl32)
    -- the ortho
    (t : Affine ℝ) (hb : t.b = 0) (hd : t.d = 0) (ha : fl t.a = t.a) (he : fl t.e = t.e) (hc' : fl t.c = t.c) (hf' : fl t.f = t.f) (w h : ℕ) (X : ℝ) (hX : 1 ≤ X ∧ X ≤ 2 ^ 100)
    (hcX : |t.c| ≤ X) (hfX : |t.f| ≤ X) (hw : |t.a| * w ≤ X) (hh : |t.e| * h ≤ X)
    -- the pixel
    (col row j i : ℕ) (hcol : col + j < w) (hrow : row + i < h) (z : ℝ) (P : V3) (hP : P = ![t.a * (col + j + 1 / 2) + t.c, t.e * (row + i + 1 / 2) + t.f, z])
    -- the camera
    (R : M3) (T : V3) (f cxy : ℝ × ℝ) (D c F C G W : ℝ) (hD : 1 / 2 ^ 100 ≤ D ∧ D ≤ 2 ^ 99) (hc : 1 / 2 ^ 19 ≤ c ∧ c ≤ 1) (hF : 1 ≤ F ∧ F ≤ 2 ^ 100) (hC : 1 ≤ C ∧ C ≤ 2 ^ 100)
    (hR : ∀ i k, |R i k| ≤ 1) (hPT : ∀ i, |P i - T i| ≤ D) (hdepth : c * D ≤ (Rᵀ *ᵥ (P - T)) 2) (hf : |f.1| ≤ F ∧ |f.2| ≤ F) (hcxy : |cxy.1| ≤ C ∧ |cxy.2| ≤ C)
    (hG : F ≤ G * (Rᵀ *ᵥ (P - T)) 2) (hXD : X ≤ 2 ^ 40 * (c * D)) (hW : 1 ≤ W ∧ W ≤ 2 ^ 100)
    (hPW : |(exactPix f cxy R T P).1| ≤ W ∧ |(exactPix f cxy R T P).2| ≤ W)
    (E : ℝ) (hE : 1 / 2 ^ 53 * (105 * (F / c ^ 2) + 20 * C + 225 * (X * G / c)) ≤ E) (hE1 : E ≤ 1)
    -- what is computed
    (ji : ℝ × ℝ) (hji : W2p64 fl (kMat f cxy) R T ![(tilePos64 fl t col row j i).1, (tilePos64 fl t col row j i).2, z] ji) :
    |fl32 ji.1 - (exactPix f cxy R T P).1| ≤ E + (W + 1) / 2 ^ 24 ∧ |fl32 ji.2 - (exactPix f cxy R T P).2| ≤ E + (W + 1) / 2 ^ 24 := by
  obtain ⟨g1, g2⟩ := C90_grid fl hfl t hb hd ha he hc' hf' w h col row j i hcol hrow X hX hcX hfX hw hh
  have hδ200 : 200 * (1 / 2 ^ 53 * (25 * X)) ≤ c * D := by
    have hcD : 0 < c * D := mul_pos (lt_of_lt_of_le (by positivity) hc.1) (lt_of_lt_of_le (by positivity) hD.1)
    norm_num at hXD ⊢
    linarith
  have key := remap_err hfl (P := P) (δ := 1 / 2 ^ 53 * (25 * X)) (by rw [hP]; exact g1) (by rw [hP]; exact g2) (by rw [hP]; rfl) hD hc hF hC hR hPT hdepth hf hcxy hG hδ200 hji
  have hsum : 1 / 2 ^ 53 * (105 * (F / c ^ 2) + 20 * C) + 9 * (1 / 2 ^ 53 * (25 * X) * G / c) ≤ E := by
    refine le_trans (le_of_eq ?_) hE
    ring
  exact ⟨round32_err hfl32 hW hE1 hPW.1 (key.1.trans hsum), round32_err hfl32 hW hE1 hPW.2 (key.2.trans hsum)⟩

/-- C90: with coordinates as of a UTM zone, images of up to 32768 pixels a side, focal lengths of up to 131072 pixels, up to 1024 source pixels per world unit and points whose depth is at
least a quarter of their distances along the axes, `_remap` samples the source within 1/256 of a pixel of the exact place.  OpenCV's interpolation knows 1/32 pixels. -/
theorem C90_subpixel (fl : ℝ → ℝ) (hfl : Rounds64 fl) (fl32 : ℝ → ℝ) (hfl32 : Rounds32 fl32)
    -- the ortho
    (t : Affine ℝ) (hb : t.b = 0) (hd : t.d = 0) (ha : fl t.a = t.a) (he : fl t.e = t.e) (hc' : fl t.c = t.c) (hf' : fl t.f = t.f) (w h : ℕ)
    (hcX : |t.c| ≤ 2 ^ 24) (hfX : |t.f| ≤ 2 ^ 24) (hw : |t.a| * w ≤ 2 ^ 24) (hh : |t.e| * h ≤ 2 ^ 24)
    -- the pixel
    (col row j i : ℕ) (hcol : col + j < w) (hrow : row + i < h) (z : ℝ) (P : V3) (hP : P = ![t.a * (col + j + 1 / 2) + t.c, t.e * (row + i + 1 / 2) + t.f, z])
    -- the camera
    (R : M3) (T : V3) (f cxy : ℝ × ℝ) (D : ℝ) (hD : 1 / 1000 ≤ D ∧ D ≤ 2 ^ 99) (hR : ∀ i k, |R i k| ≤ 1) (hPT : ∀ i, |P i - T i| ≤ D) (hdepth : D / 4 ≤ (Rᵀ *ᵥ (P - T)) 2)
    (hf : |f.1| ≤ 2 ^ 17 ∧ |f.2| ≤ 2 ^ 17) (hcxy : |cxy.1| ≤ 2 ^ 15 ∧ |cxy.2| ≤ 2 ^ 15) (hG : 2 ^ 17 ≤ 2 ^ 10 * (Rᵀ *ᵥ (P - T)) 2)
    (hPW : |(exactPix f cxy R T P).1| ≤ 2 ^ 15 ∧ |(exactPix f cxy R T P).2| ≤ 2 ^ 15)
    -- what is computed
    (ji : ℝ × ℝ) (hji : W2p64 fl (kMat f cxy) R T ![(tilePos64 fl t col row j i).1, (tilePos64 fl t col row j i).2, z] ji) :
    |fl32 ji.1 - (exactPix f cxy R T P).1| < 1 / 256 ∧ |fl32 ji.2 - (exactPix f cxy R T P).2| < 1 / 256 := by
  have h := C90_remap fl hfl fl32 hfl32 t hb hd ha he hc' hf' w h (2 ^ 24) ⟨by norm_num, by norm_num⟩ hcX hfX hw hh col row j i hcol hrow z P hP R T f cxy D (1 / 4) (2 ^ 17) (2 ^ 15)
    (2 ^ 10) (2 ^ 15) ⟨le_trans (by norm_num) hD.1, hD.2⟩ (by norm_num) (by norm_num) (by norm_num) hR hPT (by linarith) hf hcxy hG
    (by have := hD.1; norm_num at this ⊢; linarith) (by norm_num) hPW
    (1 / 2 ^ 53 * (105 * (2 ^ 17 / (1 / 4) ^ 2) + 20 * 2 ^ 15 + 225 * (2 ^ 24 * 2 ^ 10 / (1 / 4)))) le_rfl (by norm_num) ji hji
  exact ⟨lt_of_le_of_lt h.1 (by norm_num), lt_of_le_of_lt h.2 (by norm_num)⟩

theorem IsRot.abs_le_one {R : M3} (h : IsRot R) (i k : Fin 3) : |R i k| ≤ 1 := by
  have h1 : (Rᵀ * R) k k = 1 := by rw [h.orth]; simp
  rw [Matrix.mul_apply, Fin.sum_univ_three] at h1
  simp only [transpose_apply] at h1
  have : R i k ^ 2 ≤ 1 := by
    fin_cases i <;> simp only [Fin.zero_eta, Fin.mk_one, Fin.reduceFinMk] <;> nlinarith [sq_nonneg (R 0 k), sq_nonneg (R 1 k), sq_nonneg (R 2 k)]
  exact (sq_le_one_iff_abs_le_one _).1 this

/-- C90: what `world_to_pixel` of the other properties returns is what it computes in `float64`, less a small part of a pixel. -/
theorem C90_pinhole (fl : ℝ → ℝ) (hfl : Rounds64 fl) {cam : FrameCam} {R : M3} {T : V3} (hcam : IsPinhole cam R T) (X : V3) (ji : ℝ × ℝ) (h : W2p64 fl cam.K R T X ji) (D c F C : ℝ)
    (hD : 1 / 2 ^ 100 ≤ D ∧ D ≤ 2 ^ 100) (hc : 1 / 2 ^ 20 ≤ c ∧ c ≤ 1) (hF : 1 ≤ F ∧ F ≤ 2 ^ 100) (hC : 1 ≤ C ∧ C ≤ 2 ^ 100)
    (hXT : ∀ i, |X i - T i| ≤ D) (hdepth : c * D ≤ (FrameCam.camCoords R T X) 2) (hf : |cam.K 0 0| ≤ F ∧ |cam.K 1 1| ≤ F) (hcxy : |cam.K 0 2| ≤ C ∧ |cam.K 1 2| ≤ C) :
    |ji.1 - (cam.projectPt R T X).1| ≤ 1 / 2 ^ 53 * (100 * (F / c ^ 2) + 20 * C) ∧ |ji.2 - (cam.projectPt R T X).2| ≤ 1 / 2 ^ 53 * (100 * (F / c ^ 2) + 20 * C) := by
  obtain ⟨s, ctr, -, hK, hpix, -, -, -, hrot⟩ := hcam.spec
  have hd0 : (FrameCam.camCoords R T X) 2 ≠ 0 := by
    have : 0 < c * D := mul_pos (lt_of_lt_of_le (by positivity) hc.1) (lt_of_lt_of_le (by positivity) hD.1)
    linarith
  rw [hK] at h hf hcxy
  have := C90_world_to_pixel fl hfl R T X s ctr ji h D c F C hD hc hF hC hrot.abs_le_one hXT hdepth (by simpa [kMat] using hf) (by simpa [kMat] using hcxy)
  rw [FrameCam.projectPt, hpix]
  have e : dotK (kMat s ctr) (FrameCam.unitDepth (FrameCam.camCoords R T X)) =
      (s.1 * ((Rᵀ *ᵥ (X - T)) 0 / (Rᵀ *ᵥ (X - T)) 2) + ctr.1, s.2 * ((Rᵀ *ᵥ (X - T)) 1 / (Rᵀ *ᵥ (X - T)) 2) + ctr.2) := by
    have hv : ∀ v : V3, v 2 = 1 → dotK (kMat s ctr) v = (s.1 * v 0 + ctr.1, s.2 * v 1 + ctr.2) := by
      intro v hv
      simp [dotK, mulVec, dotProduct, Fin.sum_univ_three, kMat, hv]
    exact hv _ (div_self hd0)
  rw [e]
  exact this

theorem w2p64_exists (fl : ℝ → ℝ) (K R : M3) (T X : V3) : ∃ ji, W2p64 fl K R T X ji := by
  have hdot : ∀ a b : V3, ∃ r, Dot3 fl a b r := fun a b => ⟨_, 1, _, fun _ => Or.inl rfl, rfl⟩
  choose g hg using hdot
  exact ⟨(_, _), _, _, _, fun _ => rfl, fun _ => hg _ _, fun _ => rfl, hg _ _, hg _ _⟩

/-- A camera above an ortho of 20 by 30 pixels: the pixel in column 3 and row 2 of the first tile is seen at (27.5, 22.5), with rounding to nearest less than 1/256 of a pixel from there. -/
example : ∃ ji, W2p64 (roundBits 53 (-1022)) (kMat (1000, 1000) (10, 10)) !![1, 0, 0; 0, -1, 0; 0, 0, -1] ![100, 200, 200]
      ![(tilePos64 (roundBits 53 (-1022)) ⟨1, 0, 100, 0, -1, 200⟩ 0 0 3 2).1, (tilePos64 (roundBits 53 (-1022)) ⟨1, 0, 100, 0, -1, 200⟩ 0 0 3 2).2, 0] ji ∧
    |roundBits 24 (-126) ji.1 - 55 / 2| < 1 / 256 ∧ |roundBits 24 (-126) ji.2 - 45 / 2| < 1 / 256 := by
  obtain ⟨ji, hji⟩ := w2p64_exists (roundBits 53 (-1022)) (kMat (1000, 1000) (10, 10)) !![1, 0, 0; 0, -1, 0; 0, 0, -1] ![100, 200, 200]
    ![(tilePos64 (roundBits 53 (-1022)) ⟨1, 0, 100, 0, -1, 200⟩ 0 0 3 2).1, (tilePos64 (roundBits 53 (-1022)) ⟨1, 0, 100, 0, -1, 200⟩ 0 0 3 2).2, 0]
  have hi : ∀ n : ℤ, |n| < 2 ^ 53 → roundBits 53 (-1022) n = n := fun n hn => roundBits_int 53 (by norm_num) 1022 n hn
  have hx : (!![1, 0, 0; 0, -1, 0; 0, 0, -1] : M3)ᵀ *ᵥ (![207 / 2, 395 / 2, 0] - ![100, 200, 200] : V3) = ![7 / 2, 5 / 2, 200] := by
    ext k
    fin_cases k <;> simp [mulVec, dotProduct, Fin.sum_univ_three] <;> norm_num
  have h2 : (![7 / 2, 5 / 2, 200] : V3) 2 = 200 := rfl
  have hp : exactPix (1000, 1000) (10, 10) !![1, 0, 0; 0, -1, 0; 0, 0, -1] ![100, 200, 200] ![207 / 2, 395 / 2, 0] = (55 / 2, 45 / 2) := by
    unfold exactPix
    rw [hx]
    simp only [h2]
    norm_num
  refine ⟨ji, hji, ?_⟩
  have := C90_subpixel (roundBits 53 (-1022)) (roundBits_rounds 53 1022 _) (roundBits 24 (-126)) (roundBits_rounds 24 126 _) ⟨1, 0, 100, 0, -1, 200⟩ rfl rfl
    (by simpa using hi 1 (by norm_num)) (by simpa using hi (-1) (by norm_num)) (by simpa using hi 100 (by norm_num)) (by simpa using hi 200 (by norm_num)) 20 30
    (by norm_num) (by norm_num) (by norm_num) (by norm_num) 0 0 3 2 (by norm_num) (by norm_num) 0 ![207 / 2, 395 / 2, 0] (by norm_num)
    !![1, 0, 0; 0, -1, 0; 0, 0, -1] ![100, 200, 200] (1000, 1000) (10, 10) 200 (by norm_num)
    (by intro i k; fin_cases i <;> fin_cases k <;> simp) (by intro i; fin_cases i <;> norm_num [abs_le]) (by rw [hx, h2]; norm_num) (by norm_num) (by norm_num) (by rw [hx, h2]; norm_num)
    (by rw [hp]; norm_num) ji (by simpa using hji)
  rw [hp] at this
  exact this

end

end Verif.Frame
