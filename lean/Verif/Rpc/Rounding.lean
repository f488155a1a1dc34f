import Verif.Base.Rounding
import Verif.Rpc.Props

/-!
# C112: rounding in the RPC model

`RpcCamera.world_to_pixel` with each result rounded to `float64`, and the conversion of its result to `float32` in `remap`.
-/

set_option autoImplicit false

namespace Verif.RpcCam.Rounding

/-! ## Model -/

/-- A number whose sums and products are rounded by `fl`. -/
structure Num (fl : ℝ → ℝ) where
  val : ℝ

instance (fl : ℝ → ℝ) : Add (Num fl) := ⟨fun a b => ⟨fl (a.val + b.val)⟩⟩

instance (fl : ℝ → ℝ) : Mul (Num fl) := ⟨fun a b => ⟨fl (a.val * b.val)⟩⟩

/-- orthority/camera.py:464-476 `poly`, with rounding: NumPy rounds the result of each operation on arrays. -/
def poly64 (fl : ℝ → ℝ) (x y z : ℝ) (c : Fin 20 → ℝ) : ℝ := (poly (A := Num fl) ⟨x⟩ ⟨y⟩ ⟨z⟩ fun i => ⟨c i⟩).val

/-- orthority/camera.py:482-483: one coordinate, less its offset, over its scale. -/
noncomputable def norm64 (fl : ℝ → ℝ) (x off scale : ℝ) : ℝ := fl (fl (x - off) / scale)

/-- orthority/camera.py:484-488: one pixel coordinate. -/
noncomputable def axis64 (fl : ℝ → ℝ) (x y z : ℝ) (num den : Fin 20 → ℝ) (scale off : ℝ) : ℝ :=
  fl (fl (fl (poly64 fl x y z num / poly64 fl x y z den) * scale) + off)

/-- orthority/camera.py:478-489: `RpcCamera.world_to_pixel` of a point in RPC coordinates in `float64`. -/
noncomputable def project64 (fl : ℝ → ℝ) (r : Rpc ℝ) (p : ℝ × ℝ × ℝ) : ℝ × ℝ :=
  let x := norm64 fl p.1 r.longOff r.longScale
  let y := norm64 fl p.2.1 r.latOff r.latScale
  let z := norm64 fl p.2.2 r.heightOff r.heightScale
  (axis64 fl x y z r.sampNum r.sampDen r.sampScale r.sampOff, axis64 fl x y z r.lineNum r.lineDen r.lineScale r.lineOff)

/-! ## Error bounds -/

/-- `x'` is the computed value of `x`, a number of size up to `A`, with an error of up to `k` rounding errors of `A`. -/
def Tr (x' x A k : ℝ) : Prop := |x| ≤ A ∧ |x' - x| ≤ k * (1 / 2 ^ 53 * A)

theorem Tr.exact {x A : ℝ} (h : |x| ≤ A) : Tr x x A 0 := ⟨h, by simp⟩

theorem Tr.nonneg {x' x A k : ℝ} (h : Tr x' x A k) : 0 ≤ A := (abs_nonneg _).trans h.1

theorem Tr.mono {x' x A B k l : ℝ} (h : Tr x' x A k) (hA : A ≤ B) (hk : k ≤ l) (hl : 0 ≤ l) : Tr x' x B l := by
  have h0 := h.nonneg
  exact ⟨h.1.trans hA, h.2.trans (mul_le_mul hk (by linarith) (by positivity) hl)⟩

/-- The size of a computed value. -/
theorem Tr.size {x' x A k : ℝ} (h : Tr x' x A k) (hk : k ≤ 2 ^ 20) : |x'| ≤ A * (1 + 1 / 2 ^ 33) := by
  have h0 := h.nonneg
  have h1 : |x'| ≤ |x| + |x' - x| := by
    have := abs_add_le x (x' - x)
    rwa [add_sub_cancel] at this
  have h2 : k * (1 / 2 ^ 53 * A) ≤ 2 ^ 20 * (1 / 2 ^ 53 * A) := mul_le_mul_of_nonneg_right hk (by positivity)
  have := h.1
  have := h.2
  have h3 : (2 : ℝ) ^ 20 * (1 / 2 ^ 53 * A) = 1 / 2 ^ 33 * A := by ring
  linarith

/-- Rounding adds less than two rounding errors. -/
theorem Tr.round {fl : ℝ → ℝ} (hfl : Rounds64 fl) {x' x A k : ℝ} (h : Tr x' x A k) (hk : k ≤ 2 ^ 20) (hm : 1 / 2 ^ 200 ≤ A)
    (hM : A ≤ 2 ^ 200) : Tr (fl x') x A (k + 2) := by
  have h0 := h.nonneg
  refine ⟨h.1, ?_⟩
  have hs := h.size hk
  have hs' : |x'| ≤ 2 * A := by
    refine hs.trans ?_
    have : (1 : ℝ) / 2 ^ 33 ≤ 1 := by norm_num
    nlinarith
  have e := hfl.abs_err (by positivity) (x := x') (B := 2 * A) hs' (by
    have h1 : (1 : ℝ) / 2 ^ 1022 ≤ 1 / 2 ^ 200 := one_div_le_one_div_of_le (by positivity) (pow_le_pow_right₀ (by norm_num) (by norm_num))
    exact h1.trans (hm.trans (by linarith))) (by
    have h1 : (2 : ℝ) * 2 ^ 200 ≤ 2 ^ 1023 := by
      rw [← pow_succ']
      exact pow_le_pow_right₀ (by norm_num) (by norm_num)
    exact le_trans (mul_le_mul_of_nonneg_left hM (by norm_num)) h1)
  have h2 := abs_le.1 h.2
  have e2 := abs_le.1 e
  exact abs_le.2 ⟨by linarith, by linarith⟩

theorem Tr.add {fl : ℝ → ℝ} (hfl : Rounds64 fl) {x' x y' y A B k l n : ℝ} (hx : Tr x' x A k) (hy : Tr y' y B l) (hk : k ≤ n) (hl : l ≤ n)
    (hn : n ≤ 2 ^ 20) (hm : 1 / 2 ^ 200 ≤ A + B) (hM : A + B ≤ 2 ^ 200) : Tr (fl (x' + y')) (x + y) (A + B) (n + 2) := by
  have hA := hx.nonneg
  have hB := hy.nonneg
  refine Tr.round hfl ⟨(abs_add_le _ _).trans (add_le_add hx.1 hy.1), ?_⟩ hn hm hM
  have h1 := abs_le.1 (hx.2.trans (mul_le_mul_of_nonneg_right hk (by positivity)))
  have h2 := abs_le.1 (hy.2.trans (mul_le_mul_of_nonneg_right hl (by positivity)))
  exact abs_le.2 ⟨by linarith, by linarith⟩

theorem Tr.mul {fl : ℝ → ℝ} (hfl : Rounds64 fl) {x' x y' y A B k l : ℝ} (hx : Tr x' x A k) (hy : Tr y' y B l) (hk0 : 0 ≤ k)
    (hk : k ≤ 2 ^ 19 - 1) (hl : l ≤ 2 ^ 19 - 1) (hm : 1 / 2 ^ 200 ≤ A * B) (hM : A * B ≤ 2 ^ 200) : Tr (fl (x' * y')) (x * y) (A * B) (k + l + 3) := by
  have hA := hx.nonneg
  have hB := hy.nonneg
  have hAB : 0 ≤ A * B := mul_nonneg hA hB
  have h1 : Tr (x' * y') (x * y) (A * B) (k + l + 1) := by
    refine ⟨by rw [abs_mul]; exact mul_le_mul hx.1 hy.1 (abs_nonneg _) hA, ?_⟩
    have e : x' * y' - x * y = (x' - x) * (y' - y) + (x' - x) * y + x * (y' - y) := by ring
    have e1 := mul_le_mul hx.2 hy.2 (abs_nonneg _) (by positivity)
    have e2 := mul_le_mul hx.2 hy.1 (abs_nonneg _) (by positivity)
    have e3 := mul_le_mul hx.1 hy.2 (abs_nonneg _) hA
    rw [← abs_mul] at e1 e2 e3
    rw [e]
    have t1 := abs_add_le ((x' - x) * (y' - y) + (x' - x) * y) (x * (y' - y))
    have t2 := abs_add_le ((x' - x) * (y' - y)) ((x' - x) * y)
    have hkl : k * l ≤ 2 ^ 40 := by nlinarith
    have e4 : k * (1 / 2 ^ 53 * A) * (l * (1 / 2 ^ 53 * B)) ≤ 1 / 2 ^ 53 * (A * B) := by
      have : k * (1 / 2 ^ 53 * A) * (l * (1 / 2 ^ 53 * B)) = (k * l) * (1 / 2 ^ 53) * (1 / 2 ^ 53 * (A * B)) := by ring
      rw [this]
      refine mul_le_of_le_one_left (by positivity) ?_
      have : k * l * (1 / 2 ^ 53) ≤ 2 ^ 40 * (1 / 2 ^ 53) := mul_le_mul_of_nonneg_right hkl (by positivity)
      refine this.trans (by norm_num)
    have e5 : (k + l + 1) * (1 / 2 ^ 53 * (A * B)) = 1 / 2 ^ 53 * (A * B) + k * (1 / 2 ^ 53 * A) * B + A * (l * (1 / 2 ^ 53 * B)) := by ring
    linarith
  have := h1.round hfl (by linarith) hm hM
  have e : k + l + 1 + 2 = k + l + 3 := by ring
  rwa [e] at this

theorem Tr.div {fl : ℝ → ℝ} (hfl : Rounds64 fl) {x' x y' y A B k l d n : ℝ} (hx : Tr x' x A k) (hy : Tr y' y B l) (hk0 : 0 ≤ k) (hl0 : 0 ≤ l)
    (hd : 0 < d) (hyd : d ≤ |y|) (hl : l * (1 / 2 ^ 53 * B) ≤ d / 2) (hn : 2 * k + 2 * (l * (B / d)) ≤ n) (hn' : n ≤ 2 ^ 20)
    (hm : 1 / 2 ^ 200 ≤ A / d) (hM : A / d ≤ 2 ^ 200) : Tr (fl (x' / y')) (x / y) (A / d) (n + 2) := by
  have hA := hx.nonneg
  have hB := hy.nonneg
  have hAd : 0 ≤ A / d := div_nonneg hA hd.le
  have hy0 : 0 < |y| := by linarith
  have hyne : y ≠ 0 := abs_pos.1 hy0
  have hy' : |y| / 2 ≤ |y'| := by
    have h1 : |y| ≤ |y'| + |y' - y| := by
      have := abs_sub y' (y' - y)
      rwa [sub_sub_cancel] at this
    have := hy.2
    linarith
  have hy'0 : 0 < |y'| := by linarith
  have hy'ne : y' ≠ 0 := abs_pos.1 hy'0
  refine Tr.round hfl ⟨?_, ?_⟩ hn' hm hM
  · rw [abs_div, div_le_div_iff₀ hy0 hd]
    exact mul_le_mul hx.1 hyd hd.le hA
  · have e : x' / y' - x / y = ((x' - x) * y - x * (y' - y)) / (y * y') := by field_simp; ring
    rw [e, abs_div, abs_mul y y', div_le_iff₀ (mul_pos hy0 hy'0)]
    have h1 : |(x' - x) * y - x * (y' - y)| ≤ k * (1 / 2 ^ 53 * A) * |y| + A * (l * (1 / 2 ^ 53 * B)) := by
      refine (abs_sub _ _).trans ?_
      rw [abs_mul, abs_mul]
      exact add_le_add (mul_le_mul_of_nonneg_right hx.2 (abs_nonneg _)) (mul_le_mul hx.1 hy.2 (abs_nonneg _) hA)
    refine h1.trans ?_
    have h2 : (2 * k + 2 * (l * (B / d))) * (1 / 2 ^ 53 * (A / d)) ≤ n * (1 / 2 ^ 53 * (A / d)) := mul_le_mul_of_nonneg_right hn (by positivity)
    have h3 : d * (|y| / 2) ≤ |y| * |y'| := mul_le_mul hyd hy' (by positivity) (abs_nonneg _)
    have h4 : |y| * (|y| / 2) ≤ |y| * |y'| := mul_le_mul_of_nonneg_left hy' (abs_nonneg _)
    have h5 : d * d ≤ 2 * (|y| * |y'|) := by nlinarith
    have h6 : k * (1 / 2 ^ 53 * A) * |y| ≤ 2 * k * (1 / 2 ^ 53 * (A / d)) * (|y| * |y'|) := by
      have e : k * (1 / 2 ^ 53 * A) * |y| = 2 * k * (1 / 2 ^ 53 * (A / d)) * (d * (|y| / 2)) := by field_simp
      rw [e]
      exact mul_le_mul_of_nonneg_left h3 (by positivity)
    have h7 : A * (l * (1 / 2 ^ 53 * B)) ≤ 2 * (l * (B / d)) * (1 / 2 ^ 53 * (A / d)) * (|y| * |y'|) := by
      have e : A * (l * (1 / 2 ^ 53 * B)) = l * (B / d) * (1 / 2 ^ 53 * (A / d)) * (d * d) := by field_simp
      have e' : 2 * (l * (B / d)) * (1 / 2 ^ 53 * (A / d)) * (|y| * |y'|) = l * (B / d) * (1 / 2 ^ 53 * (A / d)) * (2 * (|y| * |y'|)) := by ring
      rw [e, e']
      exact mul_le_mul_of_nonneg_left h5 (by positivity)
    have h8 : 0 ≤ |y| * |y'| := by positivity
    have h9 := mul_le_mul_of_nonneg_right h2 h8
    have : (2 * k + 2 * (l * (B / d))) * (1 / 2 ^ 53 * (A / d)) * (|y| * |y'|) =
        2 * k * (1 / 2 ^ 53 * (A / d)) * (|y| * |y'|) + 2 * (l * (B / d)) * (1 / 2 ^ 53 * (A / d)) * (|y| * |y'|) := by ring
    linarith

theorem norm_tr {fl : ℝ → ℝ} (hfl : Rounds64 fl) {x off scale B : ℝ} (hB : 1 ≤ B) (hB' : B ≤ 2 ^ 100) (hs : 1 / 2 ^ 100 ≤ |scale|)
    (hs' : |scale| ≤ 2 ^ 100) (hx : |(x - off) / scale| ≤ B) : Tr (norm64 fl x off scale) ((x - off) / scale) B 4 := by
  have hs0 : 0 < |scale| := lt_of_lt_of_le (by positivity) hs
  have hsne : scale ≠ 0 := abs_pos.1 hs0
  have h1 : |x - off| ≤ B * |scale| := by rwa [abs_div, div_le_iff₀ hs0] at hx
  have h2 : Tr (fl (x - off)) (x - off) (B * |scale|) (0 + 2) := by
    refine (Tr.exact h1).round hfl (by norm_num) ?_ ?_
    · have : (1 : ℝ) / 2 ^ 200 ≤ 1 / 2 ^ 100 := one_div_le_one_div_of_le (by positivity) (pow_le_pow_right₀ (by norm_num) (by norm_num))
      nlinarith
    · have : B * |scale| ≤ 2 ^ 100 * 2 ^ 100 := mul_le_mul hB' hs' hs0.le (by positivity)
      exact this.trans (by rw [← pow_add])
  have h3 : Tr (fl (x - off) / scale) ((x - off) / scale) B 2 := by
    refine ⟨hx, ?_⟩
    rw [← sub_div, abs_div, div_le_iff₀ hs0]
    refine h2.2.trans (le_of_eq ?_)
    ring
  have := h3.round hfl (by norm_num) (by
    have : (1 : ℝ) / 2 ^ 200 ≤ 1 := by
      rw [div_le_one (by positivity)]
      exact one_le_pow₀ (by norm_num)
    linarith) (hB'.trans (pow_le_pow_right₀ (by norm_num) (by norm_num)))
  have e : (2 : ℝ) + 2 = 4 := by norm_num
  rwa [e] at this

/-- A bound that the values in `poly` keep, for coefficients of up to `C` and coordinates of up to `B`. -/
theorem range {B C A : ℝ} (hB : 1 ≤ B) (hB' : B ≤ 2 ^ 20) (hC : 1 / 2 ^ 100 ≤ C) (hC' : C ≤ 2 ^ 20) (h1 : C ≤ A) (h2 : A ≤ 20 * (C * B ^ 3)) :
    1 / 2 ^ 200 ≤ A ∧ A ≤ 2 ^ 200 := by
  constructor
  · have : (1 : ℝ) / 2 ^ 200 ≤ 1 / 2 ^ 100 := one_div_le_one_div_of_le (by positivity) (pow_le_pow_right₀ (by norm_num) (by norm_num))
    linarith
  · have h3 : B ^ 3 ≤ (2 ^ 20) ^ 3 := pow_le_pow_left₀ (by linarith) hB' 3
    have h4 : C * B ^ 3 ≤ 2 ^ 20 * (2 ^ 20) ^ 3 := mul_le_mul hC' h3 (by positivity) (by positivity)
    norm_num at h4 ⊢
    linarith

/-- `poly` of coordinates that are known up to four rounding errors. -/
theorem poly_tr {fl : ℝ → ℝ} (hfl : Rounds64 fl) {x' y' z' x y z B C : ℝ} (c : Fin 20 → ℝ) (hB : 1 ≤ B) (hB' : B ≤ 2 ^ 20)
    (hC : 1 / 2 ^ 100 ≤ C) (hC' : C ≤ 2 ^ 20) (hc : ∀ i, |c i| ≤ C) (hx : Tr x' x B 4) (hy : Tr y' y B 4) (hz : Tr z' z B 4) :
    Tr (poly64 fl x' y' z' c) (poly x y z c) (20 * (C * B ^ 3)) 35 := by
  have hC0 : 0 < C := lt_of_lt_of_le (by positivity) hC
  have hpow : ∀ p q : ℕ, p ≤ q → C * B ^ p ≤ C * B ^ q := fun p q h => mul_le_mul_of_nonneg_left (pow_le_pow_right₀ hB h) hC0.le
  have rg : ∀ (p : ℕ) (m : ℝ), p ≤ 3 → 1 ≤ m → m ≤ 20 → 1 / 2 ^ 200 ≤ m * (C * B ^ p) ∧ m * (C * B ^ p) ≤ 2 ^ 200 := by
    intro p m hp hm hm'
    have h0 := hpow 0 p (Nat.zero_le _)
    have h3 := hpow p 3 hp
    rw [pow_zero, mul_one] at h0
    have h4 : 0 ≤ C * B ^ p := by linarith
    exact range hB hB' hC hC' (by nlinarith) (by nlinarith)
  -- the size is a multiple of C B ^ p
  have coef : ∀ i, Tr (c i) (c i) (1 * (C * B ^ 0)) 0 := fun i => by
    rw [pow_zero, mul_one, one_mul]
    exact Tr.exact (hc i)
  have mul : ∀ (p : ℕ) (m l k : ℝ) {w' w a' a : ℝ}, Tr w' w B 4 → Tr a' a (m * (C * B ^ p)) l →
      (p ≤ 2 ∧ 1 ≤ m ∧ m ≤ 20 ∧ l ≤ 40 ∧ k = l + 7) → Tr (fl (w' * a')) (w * a) (m * (C * B ^ (p + 1))) k := by
    rintro p m l k w' w a' a hw ha ⟨hp, hm, hm', hl', rfl⟩
    have r := rg (p + 1) m (by omega) hm hm'
    have e : m * (C * B ^ (p + 1)) = B * (m * (C * B ^ p)) := by ring
    rw [e] at r ⊢
    have := hw.mul hfl ha (by norm_num) (by norm_num) (by linarith) r.1 r.2
    have e : 4 + l + 3 = l + 7 := by ring
    rwa [e] at this
  have add : ∀ (p q : ℕ) (m n k l S K : ℝ) {w' w a' a : ℝ}, Tr w' w (m * (C * B ^ p)) k → Tr a' a (n * (C * B ^ q)) l →
      (p ≤ q ∧ q ≤ 3 ∧ 1 ≤ m ∧ 1 ≤ n ∧ m + n = S ∧ S ≤ 20 ∧ 0 ≤ k ∧ k + 2 ≤ K ∧ l + 2 ≤ K ∧ K ≤ 40) →
      Tr (fl (w' + a')) (w + a) (S * (C * B ^ q)) K := by
    rintro p q m n k l S K w' w a' a hw ha ⟨hpq, hq, hm, hn, rfl, hmn, hk0, hk, hl, hK⟩
    have hw' : Tr w' w (m * (C * B ^ q)) k := hw.mono (mul_le_mul_of_nonneg_left (hpow p q hpq) (by linarith)) le_rfl hk0
    have r := rg q (m + n) hq (by linarith) hmn
    rw [add_mul] at r ⊢
    have := hw'.add hfl ha (n := K - 2) (by linarith) (by linarith) (by linarith) r.1 r.2
    rwa [sub_add_cancel] at this
  have addr : ∀ (p q : ℕ) (m n k l S K : ℝ) {w' w a' a : ℝ}, Tr w' w (m * (C * B ^ p)) k → Tr a' a (n * (C * B ^ q)) l →
      (q ≤ p ∧ p ≤ 3 ∧ 1 ≤ m ∧ 1 ≤ n ∧ m + n = S ∧ S ≤ 20 ∧ 0 ≤ l ∧ k + 2 ≤ K ∧ l + 2 ≤ K ∧ K ≤ 40) →
      Tr (fl (w' + a')) (w + a) (S * (C * B ^ p)) K := by
    rintro p q m n k l S K w' w a' a hw ha ⟨hpq, hq, hm, hn, hS, hmn, hl0, hk, hl, hK⟩
    rw [add_comm w' a', add_comm w a]
    exact add q p n m l k S K ha hw ⟨hpq, hq, hn, hm, by rw [add_comm]; exact hS, hmn, hl0, hl, hk, hK⟩
  -- c i + x * c j + y * c k + z * c l
  have lin : ∀ i j k l, Tr (fl (fl (fl (c i + fl (x' * c j)) + fl (y' * c k)) + fl (z' * c l))) (c i + x * c j + y * c k + z * c l)
      (4 * (C * B ^ 1)) 13 := by
    intro i j k l
    have h1 := add 0 1 1 1 0 7 2 9 (coef i) (mul 0 1 0 7 hx (coef j) (by norm_num)) (by norm_num)
    have h2 := add 1 1 2 1 9 7 3 11 h1 (mul 0 1 0 7 hy (coef k) (by norm_num)) (by norm_num)
    exact add 1 1 3 1 11 7 4 13 h2 (mul 0 1 0 7 hz (coef l) (by norm_num)) (by norm_num)
  -- the term with x
  have a2 := add 0 1 1 1 0 7 2 9 (coef 4) (mul 0 1 0 7 hz (coef 10) (by norm_num)) (by norm_num)
  have a4 := add 0 2 1 2 0 16 3 18 (coef 1) (mul 1 2 9 16 hy a2 (by norm_num)) (by norm_num)
  have a6 := addr 2 1 3 1 18 7 4 20 a4 (mul 0 1 0 7 hz (coef 5) (by norm_num)) (by norm_num)
  have a7 := add 2 2 4 4 20 20 8 22 a6 (mul 1 4 13 20 hx (lin 7 11 14 17) (by norm_num)) (by norm_num)
  have a9 := add 0 3 1 8 0 29 9 31 (coef 0) (mul 2 8 22 29 hx a7 (by norm_num)) (by norm_num)
  -- the term with y
  have d1 := mul 0 1 0 7 hz (coef 6) (by norm_num)
  rw [mul_comm z', mul_comm z] at d1
  have d2 := add 0 1 1 1 0 7 2 9 (coef 2) d1 (by norm_num)
  have d3 := add 1 2 2 4 9 20 6 22 d2 (mul 1 4 13 20 hy (lin 8 12 15 18) (by norm_num)) (by norm_num)
  have r2 := add 3 3 9 6 31 29 15 33 a9 (mul 2 6 22 29 hy d3 (by norm_num)) (by norm_num)
  -- the term with z
  have g1 := add 0 2 1 4 0 20 5 22 (coef 3) (mul 1 4 13 20 hz (lin 9 13 16 19) (by norm_num)) (by norm_num)
  exact add 3 3 15 5 33 29 20 35 r2 (mul 2 5 22 29 hz g1 (by norm_num)) (by norm_num)

/-! ## Specification -/

/-- The RPC model has sizes that are usual: scales and coefficients are neither very large nor very small. -/
structure Usual (r : Rpc ℝ) (C S : ℝ) : Prop where
  scales : ∀ s ∈ [r.longScale, r.latScale, r.heightScale], 1 / 2 ^ 100 ≤ |s| ∧ |s| ≤ 2 ^ 100
  coeffs : ∀ i, |r.sampNum i| ≤ C ∧ |r.sampDen i| ≤ C ∧ |r.lineNum i| ≤ C ∧ |r.lineDen i| ≤ C
  pixels : |r.sampScale| ≤ S ∧ |r.lineScale| ≤ S ∧ |r.sampOff| ≤ S ∧ |r.lineOff| ≤ S

/-- A point of the ground where the model may be used: the normalised coordinates are up to `B`, and the denominators are not near zero. -/
structure Within (r : Rpc ℝ) (p : ℝ × ℝ × ℝ) (B d : ℝ) : Prop where
  x : |(p.1 - r.longOff) / r.longScale| ≤ B
  y : |(p.2.1 - r.latOff) / r.latScale| ≤ B
  z : |(p.2.2 - r.heightOff) / r.heightScale| ≤ B
  samp : d ≤ |poly ((p.1 - r.longOff) / r.longScale) ((p.2.1 - r.latOff) / r.latScale) ((p.2.2 - r.heightOff) / r.heightScale) r.sampDen|
  line : d ≤ |poly ((p.1 - r.longOff) / r.longScale) ((p.2.1 - r.latOff) / r.latScale) ((p.2.2 - r.heightOff) / r.heightScale) r.lineDen|

/-! ## Theorems -/

theorem axis_err {fl : ℝ → ℝ} (hfl : Rounds64 fl) {x' y' z' x y z B C S d : ℝ} (num den : Fin 20 → ℝ) (scale off : ℝ) (hB : 1 ≤ B)
    (hB' : B ≤ 2 ^ 20) (hC : 1 / 2 ^ 100 ≤ C) (hC' : C ≤ 2 ^ 20) (hnum : ∀ i, |num i| ≤ C) (hden : ∀ i, |den i| ≤ C) (hS : 1 ≤ S)
    (hS' : S ≤ 2 ^ 40) (hscale : |scale| ≤ S) (hoff : |off| ≤ S) (hx : Tr x' x B 4) (hy : Tr y' y B 4) (hz : Tr z' z B 4)
    (hd : 0 < d) (hyd : d ≤ |poly x y z den|) (M : ℝ) (hM : 20 * (C * B ^ 3) = M * d) (hM' : M ≤ 2 ^ 12) :
    |axis64 fl x' y' z' num den scale off - (poly x y z num / poly x y z den * scale + off)| ≤ 1 / 2 ^ 53 * (80 * (M + 1) ^ 2 * S) := by
  have hn := poly_tr hfl num hB hB' hC hC' hnum hx hy hz
  have hq := poly_tr hfl den hB hB' hC hC' hden hx hy hz
  have hM1 : 1 ≤ M := by
    have := hyd.trans hq.1
    rw [hM] at this
    by_contra h
    nlinarith
  rw [hM] at hn hq
  have hMd : M * d / d = M := by field_simp
  have h200 : (1 : ℝ) / 2 ^ 200 ≤ 1 := by norm_num
  have q := hn.div hfl hq (by norm_num) (by norm_num) hd hyd (n := 70 + 70 * M) (by nlinarith) (by rw [hMd]; linarith) (by linarith)
    (by rw [hMd]; linarith) (by rw [hMd]; norm_num at hM' ⊢; linarith)
  rw [hMd] at q
  have hMS : 1 ≤ M * S := by nlinarith
  have hMS' : M * S ≤ 2 ^ 12 * 2 ^ 40 := mul_le_mul hM' hS' (by linarith) (by norm_num)
  have w := q.mul hfl (Tr.exact hscale) (by linarith) (by norm_num at hM' ⊢; linarith) (by norm_num) (by linarith)
    (by norm_num at hMS' ⊢; linarith)
  have r := w.add hfl (Tr.exact hoff) (n := 70 + 70 * M + 2 + 0 + 3) le_rfl (by linarith) (by norm_num at hM' ⊢; linarith) (by linarith)
    (by norm_num at hMS' hS' ⊢; linarith)
  refine r.2.trans ?_
  have e : 1 / 2 ^ 53 * (80 * (M + 1) ^ 2 * S) - (70 + 70 * M + 2 + 0 + 3 + 2) * (1 / 2 ^ 53 * (M * S + S)) =
      1 / 2 ^ 53 * ((10 * M + 3) * ((M + 1) * S)) := by ring
  have : 0 ≤ 1 / 2 ^ 53 * ((10 * M + 3) * ((M + 1) * S)) := by positivity
  linarith

/-- C112: the pixel that `world_to_pixel` of an RPC camera computes in `float64` is within a small part of a pixel of the exact one.  `C` bounds
the coefficients, `B` the normalised coordinates and `S` the pixel scales and offsets; the denominators are at least `d`. -/
theorem C112_world_to_pixel (fl : ℝ → ℝ) (hfl : Rounds64 fl) (r : Rpc ℝ) (p : ℝ × ℝ × ℝ) (B C S d M : ℝ) (hB : 1 ≤ B ∧ B ≤ 2 ^ 20)
    (hC : 1 / 2 ^ 100 ≤ C ∧ C ≤ 2 ^ 20) (hS : 1 ≤ S ∧ S ≤ 2 ^ 40) (hd : 0 < d) (hr : Usual r C S) (hp : Within r p B d)
    (hM : M = 20 * (C * B ^ 3) / d) (hM' : M ≤ 2 ^ 12) :
    |(project64 fl r p).1 - (project r p).1| ≤ 1 / 2 ^ 53 * (80 * (M + 1) ^ 2 * S) ∧
      |(project64 fl r p).2 - (project r p).2| ≤ 1 / 2 ^ 53 * (80 * (M + 1) ^ 2 * S) := by
  have sc := fun s hs => hr.scales s hs
  have hB'' : B ≤ 2 ^ 100 := hB.2.trans (by norm_num)
  have hx := norm_tr hfl hB.1 hB'' (sc r.longScale (by simp)).1 (sc r.longScale (by simp)).2 hp.x
  have hy := norm_tr hfl hB.1 hB'' (sc r.latScale (by simp)).1 (sc r.latScale (by simp)).2 hp.y
  have hz := norm_tr hfl hB.1 hB'' (sc r.heightScale (by simp)).1 (sc r.heightScale (by simp)).2 hp.z
  have hM'' : 20 * (C * B ^ 3) = M * d := by rw [hM]; field_simp
  exact ⟨axis_err hfl _ _ _ _ hB.1 hB.2 hC.1 hC.2 (fun i => (hr.coeffs i).1) (fun i => (hr.coeffs i).2.1) hS.1 hS.2 hr.pixels.1 hr.pixels.2.2.1
      hx hy hz hd hp.samp M hM'' hM',
    axis_err hfl _ _ _ _ hB.1 hB.2 hC.1 hC.2 (fun i => (hr.coeffs i).2.2.1) (fun i => (hr.coeffs i).2.2.2) hS.1 hS.2 hr.pixels.2.1 hr.pixels.2.2.2
      hx hy hz hd hp.line M hM'' hM'⟩

/-- C112: for images of up to 32768 pixels a side, coefficients of up to 2, points up to half a side outside of the block that the model is
made for, and denominators of at least 1/2, `remap` samples the source within 1/256 of a pixel of the place that the RPC model gives. -/
theorem C112_subpixel (fl : ℝ → ℝ) (hfl : Rounds64 fl) (fl32 : ℝ → ℝ) (hfl32 : Rounds32 fl32) (r : Rpc ℝ) (p : ℝ × ℝ × ℝ)
    (hr : Usual r 2 (2 ^ 15)) (hp : Within r p (3 / 2) (1 / 2)) (hW : |(project r p).1| ≤ 2 ^ 15 ∧ |(project r p).2| ≤ 2 ^ 15) :
    |fl32 (project64 fl r p).1 - (project r p).1| < 1 / 256 ∧ |fl32 (project64 fl r p).2 - (project r p).2| < 1 / 256 := by
  have h := C112_world_to_pixel fl hfl r p (3 / 2) 2 (2 ^ 15) (1 / 2) 270 (by norm_num) (by norm_num) (by norm_num) (by norm_num) hr hp
    (by norm_num) (by norm_num)
  have key : ∀ a b : ℝ, |a - b| ≤ 1 / 2 ^ 53 * (80 * (270 + 1) ^ 2 * 2 ^ 15) → |b| ≤ 2 ^ 15 → |fl32 a - b| < 1 / 256 := by
    intro a b hab hb
    have e1 : (1 : ℝ) / 2 ^ 53 * (80 * (270 + 1) ^ 2 * 2 ^ 15) ≤ 1 / 1024 := by norm_num
    have h1 := abs_le.1 (hab.trans e1)
    have h2 := abs_le.1 hb
    have h3 := abs_le.1 (hfl32.abs_err (by positivity) (x := a) (B := 2 ^ 15 + 1) (abs_le.2 ⟨by linarith, by linarith⟩) (by norm_num) (by norm_num))
    have e2 : (1 : ℝ) / 2 ^ 24 * (2 ^ 15 + 1) ≤ 5 / 2048 := by norm_num
    refine abs_lt.2 ⟨?_, ?_⟩ <;> norm_num at h1 h3 e2 ⊢ <;> linarith
  exact ⟨key _ _ h.1 hW.1, key _ _ h.2 hW.2⟩

/-- Rounding to nearest, and the first terms of an image of 10000 pixels a side. -/
noncomputable def usualRpc : Rpc ℝ where
  longOff := 24
  latOff := -33
  heightOff := 500
  longScale := 1 / 10
  latScale := 1 / 10
  heightScale := 500
  sampOff := 5000
  lineOff := 5000
  sampScale := 5000
  lineScale := 5000
  sampNum := fun i => if i = 1 then 1 else if i = 3 then 1 / 100 else 0
  sampDen := fun i => if i = 0 then 1 else if i = 3 then 1 / 1000 else 0
  lineNum := fun i => if i = 2 then -1 else 0
  lineDen := fun i => if i = 0 then 1 else if i = 3 then 1 / 1000 else 0
  err := (none, none)

example : |roundBits 24 (-126) (project64 (roundBits 53 (-1022)) usualRpc (24 + 1 / 20, -33 + 1 / 30, 600)).1 -
      (project usualRpc (24 + 1 / 20, -33 + 1 / 30, 600)).1| < 1 / 256 := by
  have hx : ((24 + 1 / 20 : ℝ) - usualRpc.longOff) / usualRpc.longScale = 1 / 2 := by simp only [usualRpc]; norm_num
  have hy : ((-33 + 1 / 30 : ℝ) - usualRpc.latOff) / usualRpc.latScale = 1 / 3 := by simp only [usualRpc]; norm_num
  have hz : ((600 : ℝ) - usualRpc.heightOff) / usualRpc.heightScale = 1 / 5 := by simp only [usualRpc]; norm_num
  have p1 : poly (1 / 2 : ℝ) (1 / 3) (1 / 5) usualRpc.sampDen = 5001 / 5000 := by simp [poly, usualRpc]; norm_num
  have p2 : poly (1 / 2 : ℝ) (1 / 3) (1 / 5) usualRpc.lineDen = 5001 / 5000 := by simp [poly, usualRpc]; norm_num
  have p3 : poly (1 / 2 : ℝ) (1 / 3) (1 / 5) usualRpc.sampNum = 251 / 500 := by simp [poly, usualRpc]; norm_num
  have p4 : poly (1 / 2 : ℝ) (1 / 3) (1 / 5) usualRpc.lineNum = -1 / 3 := by simp [poly, usualRpc]; norm_num
  refine (C112_subpixel _ (roundBits_rounds 53 1022 _) _ (roundBits_rounds 24 126 _) usualRpc _ ⟨?_, ?_, ?_⟩ ⟨?_, ?_, ?_, ?_, ?_⟩ ⟨?_, ?_⟩).1
  · intro s hs
    simp only [List.mem_cons, List.not_mem_nil, or_false, usualRpc] at hs
    rcases hs with rfl | rfl | rfl <;> norm_num [abs_of_pos]
  · intro i
    simp only [usualRpc]
    refine ⟨?_, ?_, ?_, ?_⟩ <;> (repeat' split) <;> norm_num [abs_of_pos]
  · simp only [usualRpc]
    norm_num [abs_of_pos]
  · rw [hx]; norm_num [abs_of_pos]
  · rw [hy]; norm_num [abs_of_pos]
  · rw [hz]; norm_num [abs_of_pos]
  · rw [hx, hy, hz, p1]; norm_num [abs_of_pos]
  · rw [hx, hy, hz, p2]; norm_num [abs_of_pos]
  · simp only [project, normXyz]
    rw [hx, hy, hz, p1, p3]
    simp only [usualRpc]
    norm_num [abs_of_pos]
  · simp only [project, normXyz]
    rw [hx, hy, hz, p2, p4]
    simp only [usualRpc]
    norm_num [abs_of_pos]

end Verif.RpcCam.Rounding
