import Verif.PanSharp.Rounding

/-!
# C116: the statistics of pan-sharpening are accurate for every schedule
-/

set_option autoImplicit false

namespace Verif.PanSharp
open Verif.Tiles Verif.Ortho

/-! ## Exact statistics are bounded -/

theorem tileStats_mean_abs {l : List (ℕ → ℝ)} {i : ℕ} {M : ℝ} (hM : 0 ≤ M) (hl : ∀ v ∈ l, |v i| ≤ M) : |(tileStats l).means i| ≤ M := by
  rw [tileStats_mean]
  rcases List.eq_nil_or_concat l with rfl | ⟨k, a, rfl⟩
  · simpa using hM
  · have h := abs_sum_le (l := (k ++ [a]).map fun v => v i) (B := M) (by
      intro x hx
      obtain ⟨v, hv, rfl⟩ := List.mem_map.1 hx
      exact hl v (by simpa using hv))
    rw [List.length_map] at h
    have hn : (0 : ℝ) < (k ++ [a]).length := by simp; positivity
    simp only [List.concat_eq_append] at *
    rw [abs_div, abs_of_pos hn, div_le_iff₀ hn, mul_comm]
    exact h

theorem tileStats_dev_abs {l : List (ℕ → ℝ)} {i : ℕ} {M : ℝ} (hM : 0 ≤ M) (hl : ∀ v ∈ l, |v i| ≤ M) {v : ℕ → ℝ} (hv : v ∈ l) :
    |v i - (tileStats l).means i| ≤ 2 * M := by
  have h1 := hl v hv
  have h2 := tileStats_mean_abs hM hl
  rw [abs_le] at *
  constructor <;> linarith

theorem tileStats_prod_eq (l : List (ℕ → ℝ)) (i j : ℕ) :
    (tileStats l).prod i j = (l.map fun v => (v i - (tileStats l).means i) * (v j - (tileStats l).means j)).sum := rfl

theorem tileStats_prod_abs {l : List (ℕ → ℝ)} {i j : ℕ} {M : ℝ} (hM : 0 ≤ M) (hi : ∀ v ∈ l, |v i| ≤ M) (hj : ∀ v ∈ l, |v j| ≤ M) :
    |(tileStats l).prod i j| ≤ l.length * (4 * M ^ 2) := by
  rw [tileStats_prod_eq]
  have h := abs_sum_le (l := l.map fun v => (v i - (tileStats l).means i) * (v j - (tileStats l).means j)) (B := 4 * M ^ 2) (by
    intro x hx
    obtain ⟨v, hv, rfl⟩ := List.mem_map.1 hx
    rw [abs_mul]
    calc _ ≤ 2 * M * (2 * M) := mul_le_mul (tileStats_dev_abs hM hi hv) (tileStats_dev_abs hM hj hv) (abs_nonneg _) (by positivity)
      _ = _ := by ring)
  rwa [List.length_map] at h

/-! ## Tiles -/

section Tile
variable {u m X : ℝ} {fl : ℝ → ℝ}

theorem sum_close {α : Type} {l : List α} {p : List ℝ} {f : α → ℝ} {e : ℝ} (h : List.Forall₂ (fun q v => |q - f v| ≤ e) p l) :
    |p.sum - (l.map f).sum| ≤ l.length * e := by
  induction h with
  | nil => simp
  | @cons q v p l h1 _ ih =>
    rw [List.sum_cons, List.map_cons, List.sum_cons, List.length_cons]
    push_cast
    rw [abs_le] at *
    constructor <;> linarith

/-- The rounded mean of a tile. -/
theorem tile_mean_err (h : Rounds u m X fl) (hu : 0 ≤ u) (hu' : u ≤ 1 / 1000) {M T : ℝ} (hM : 1 ≤ M) (hm : m ≤ 1) {l : List (ℕ → ℝ)} {t : Agg ℝ} (ht : TileFl fl l t)
    {i : ℕ} (hl : ∀ v ∈ l, |v i| ≤ M) (hT : (l.length : ℝ) ≤ T) (hT1 : 1 ≤ T) (hTu : 40 * (T * u) ≤ 1) (hX : 2 * (T * M) ≤ X) :
    |t.means i - (tileStats l).means i| ≤ 3 * (T * u * M) := by
  have hM0 : 0 ≤ M := by linarith
  have hT0 : 0 ≤ T := by linarith
  by_cases hne : l = []
  · rw [ht.zero hne i]
    subst hne
    have h0 : (tileStats ([] : List (ℕ → ℝ))).means i = 0 := by simp [tileStats]
    rw [h0, sub_zero, abs_zero]
    positivity
  obtain ⟨S, hS, e⟩ := ht.mean hne i
  rw [e, tileStats_mean]
  have hb : ∀ x ∈ l.map (fun v => v i), |x| ≤ M := by
    intro x hx
    obtain ⟨v, hv, rfl⟩ := List.mem_map.1 hx
    exact hl v hv
  have hn1 : (1 : ℝ) ≤ l.length := by exact_mod_cast List.length_pos_iff.2 hne
  have hlu : (l.length : ℝ) * u ≤ T * u := mul_le_mul_of_nonneg_right hT hu
  have hlM : (l.length : ℝ) * M ≤ T * M := mul_le_mul_of_nonneg_right hT hM0
  have e1 := sumFl_err h hu hM0 (hm.trans hM) hS hb (by rw [List.length_map]; linarith) (by rw [List.length_map]; linarith)
  have e2 := abs_sum_le hb
  rw [List.length_map] at e1 e2
  have hTM : T ≤ T * M := by nlinarith
  have en := flNat_err h hu hm (a := l.length) (by linarith)
  generalize (l.map fun v => v i).sum = s0 at *
  generalize fl (l.length : ℝ) = n' at *
  generalize (l.length : ℝ) = n at *
  have hnpos : 0 < n := by linarith
  have hun : u * n ≤ n / 1000 := by nlinarith
  have hn' : 0.999 * n ≤ n' := by
    rw [abs_le] at en
    linarith
  have hn'pos : 0 < n' := by linarith
  have hfac : 2 * (u * M) * (n * (n - 1)) ≤ n * M / 10 := by
    have : 2 * (u * M) * (n * (n - 1)) = n * M * (2 * (n * u) - 2 * u) := by ring
    rw [this]
    have : 0 ≤ n * M := by positivity
    nlinarith
  have hS1 : |S| ≤ 1.1 * (n * M) := by
    rw [abs_le] at *
    constructor <;> linarith
  have hnM : M * (0.999 * n) ≤ M * n' := mul_le_mul_of_nonneg_left hn' hM0
  have hq : |S / n'| ≤ 1.2 * M := by
    rw [abs_div, abs_of_pos hn'pos, div_le_iff₀ hn'pos]
    have : 0 ≤ n * M := by positivity
    linarith
  have hmid : |S / n' - S / n| ≤ 1.2 * (u * M) := by
    have : S / n' - S / n = S / n' * ((n - n') / n) := by field_simp
    rw [this, abs_mul, abs_div (n - n'), abs_of_pos hnpos, abs_sub_comm n n']
    have h1 : |n' - n| / n ≤ u := by rwa [div_le_iff₀ hnpos]
    calc |S / n'| * (|n' - n| / n) ≤ 1.2 * M * u := mul_le_mul hq h1 (by positivity) (by positivity)
      _ = _ := by ring
  have hlast : |S / n - s0 / n| ≤ 2 * (u * M) * (n - 1) := by
    rw [← sub_div, abs_div, abs_of_pos hnpos, div_le_iff₀ hnpos]
    linarith
  have hM_TM : M ≤ T * M := by nlinarith
  have eq := h.abs_err hu hq (by linarith) (by linarith)
  have huM : 0 ≤ u * M := by positivity
  have hnT : u * M * n ≤ u * M * T := mul_le_mul_of_nonneg_left hT huM
  have hT1' : u * M ≤ u * M * T := by nlinarith
  have t1 := abs_add_le (fl (S / n') - S / n' + (S / n' - S / n)) (S / n - s0 / n)
  have t2 := abs_add_le (fl (S / n') - S / n') (S / n' - S / n)
  have e : fl (S / n') - s0 / n = fl (S / n') - S / n' + (S / n' - S / n) + (S / n - s0 / n) := by ring
  rw [e]
  linarith

/-- The rounded sum of products of deviations of a tile. -/
theorem tile_prod_err (h : Rounds u m X fl) (hu : 0 ≤ u) (hu' : u ≤ 1 / 1000) {M T : ℝ} (hM : 1 ≤ M) (hm : m ≤ 1) {l : List (ℕ → ℝ)} {t : Agg ℝ} (ht : TileFl fl l t)
    {i j : ℕ} (hi : ∀ v ∈ l, |v i| ≤ M) (hj : ∀ v ∈ l, |v j| ≤ M) (hT : (l.length : ℝ) ≤ T) (hT1 : 1 ≤ T) (hTu : 40 * (T * u) ≤ 1) (hX : 20 * (T * M ^ 2) ≤ X) :
    |t.prod i j - (tileStats l).prod i j| ≤ l.length * (40 * (T * u * M ^ 2)) := by
  have hM0 : 0 ≤ M := by linarith
  have hT0 : 0 ≤ T := by linarith
  have hMM : M ≤ M ^ 2 := by nlinarith
  have hTMM : T * M ≤ T * M ^ 2 := mul_le_mul_of_nonneg_left hMM hT0
  have hTM : 0 ≤ T * M := by positivity
  have hMT : M ≤ T * M := by nlinarith
  have hMT2 : M ^ 2 ≤ T * M ^ 2 := by nlinarith
  rw [tileStats_prod_eq]
  rcases ht.prod i j with ⟨h0, hr⟩ | ⟨p, hp, hs⟩
  · rw [List.map_eq_nil_iff] at h0
    subst h0
    simp [hr]
  · have dev : ∀ k, (∀ v ∈ l, |v k| ≤ M) → ∀ v ∈ l, |fl (v k - t.means k)| ≤ 2.16 * M ∧ |fl (v k - t.means k) - (v k - (tileStats l).means k)| ≤ 5.15 * (T * u * M) := by
      intro k hk v hv
      have a1 := tile_mean_err h hu hu' hM hm ht hk hT hT1 hTu (by linarith)
      have a2 := tileStats_mean_abs hM0 hk
      have a3 := hk v hv
      have a4 : 3 * (T * u * M) ≤ 0.1 * M := by nlinarith
      have a5 : |v k - t.means k| ≤ 2.15 * M := by
        rw [abs_le] at *
        constructor <;> linarith
      have a6 := h.abs_err hu a5 (by linarith) (by linarith)
      have a7 : u * M ≤ M / 1000 := by nlinarith
      have a8 : u * M ≤ T * u * M := by
        have : 0 ≤ u * M := by positivity
        nlinarith
      constructor
      · rw [abs_le] at *
        constructor <;> linarith
      · rw [abs_le] at *
        constructor <;> linarith
    have q : List.Forall₂ (fun q v => |q - (v i - (tileStats l).means i) * (v j - (tileStats l).means j)| ≤ 27 * (T * u * M ^ 2) ∧ |q| ≤ 5 * M ^ 2) p l := by
      rw [List.forall₂_map_right_iff] at hp
      clear hs
      have aux : ∀ (k : List (ℕ → ℝ)) (p : List ℝ), (∀ v ∈ k, v ∈ l) →
          List.Forall₂ (fun q v => q = fl (fl (v i - t.means i) * fl (v j - t.means j)) ∨ q = fl (v i - t.means i) * fl (v j - t.means j)) p k →
          List.Forall₂ (fun q v => |q - (v i - (tileStats l).means i) * (v j - (tileStats l).means j)| ≤ 27 * (T * u * M ^ 2) ∧ |q| ≤ 5 * M ^ 2) p k := by
        intro k p hk hf
        induction hf with
        | nil => exact .nil
        | @cons q v p k hq _ ih =>
          refine .cons ?_ (ih fun w hw => hk w (by simp [hw]))
          have hv := hk v (by simp)
          obtain ⟨b1, b2⟩ := dev i hi v hv
          obtain ⟨c1, c2⟩ := dev j hj v hv
          have d2 := tileStats_dev_abs hM0 hj hv
          generalize fl (v i - t.means i) = x at *
          generalize fl (v j - t.means j) = y at *
          generalize v i - (tileStats l).means i = x0 at *
          generalize v j - (tileStats l).means j = y0 at *
          have z1 : |x * y| ≤ 4.67 * M ^ 2 := by
            rw [abs_mul]
            have := mul_le_mul b1 c1 (abs_nonneg _) (by positivity)
            nlinarith
          have z2 : |x * y - x0 * y0| ≤ 21.5 * (T * u * M ^ 2) := by
            have e : x * y - x0 * y0 = x * (y - y0) + y0 * (x - x0) := by ring
            rw [e]
            have k1 := mul_le_mul b1 c2 (abs_nonneg _) (by positivity)
            have k2 := mul_le_mul d2 b2 (abs_nonneg _) (by positivity)
            rw [← abs_mul] at k1 k2
            have := abs_add_le (x * (y - y0)) (y0 * (x - x0))
            have : 0 ≤ T * u * M ^ 2 := by positivity
            nlinarith
          have z3 := h.abs_err hu z1 (by nlinarith) (by linarith)
          have z4 : |q - x * y| ≤ u * (4.67 * M ^ 2) := by
            rcases hq with rfl | rfl
            · exact z3
            · rw [sub_self, abs_zero]
              positivity
          have z5 : u * M ^ 2 ≤ T * u * M ^ 2 := by
            have : 0 ≤ u * M ^ 2 := by positivity
            nlinarith
          have z6 : u * M ^ 2 ≤ M ^ 2 / 1000 := by
            have : 0 ≤ M ^ 2 := by positivity
            nlinarith
          constructor
          · rw [abs_le] at *
            constructor <;> linarith
          · rw [abs_le] at *
            constructor <;> linarith
      exact aux l p (fun _ hv => hv) hp
    have hlen := q.length_eq
    have q1 := sum_close (e := 27 * (T * u * M ^ 2)) (q.imp fun _ _ hq => hq.1)
    have q2 : ∀ x ∈ p, |x| ≤ 5 * M ^ 2 := by
      intro x hx
      obtain ⟨k, hk, rfl⟩ := List.getElem_of_mem hx
      exact ((List.forall₂_iff_get.1 q).2 k hk (hlen ▸ hk)).2
    have hlu : (l.length : ℝ) * u ≤ T * u := mul_le_mul_of_nonneg_right hT hu
    have hlM : (l.length : ℝ) * M ^ 2 ≤ T * M ^ 2 := mul_le_mul_of_nonneg_right hT (by positivity)
    have q3 := sumFl_err h hu (by positivity) (by nlinarith) hs q2 (by rw [hlen]; linarith) (by rw [hlen]; linarith)
    rw [hlen] at q3
    have q4 : 2 * (u * (5 * M ^ 2)) * (l.length * (l.length - 1)) ≤ l.length * (10 * (T * u * M ^ 2)) := by
      have : 2 * (u * (5 * M ^ 2)) * (l.length * (l.length - 1)) = l.length * (10 * (u * M ^ 2) * (l.length - 1)) := by ring
      rw [this]
      apply mul_le_mul_of_nonneg_left _ (by positivity)
      have : 0 ≤ u * M ^ 2 := by positivity
      nlinarith
    rw [abs_le] at *
    have : 0 ≤ (l.length : ℝ) * (T * u * M ^ 2) := by positivity
    constructor <;> linarith

end Tile

/-! ## Aggregation -/

section Step
variable {u m X : ℝ} {fl : ℝ → ℝ}

theorem diff_err (h : Rounds u m X fl) (hu : 0 ≤ u) (hu' : u ≤ 1 / 1000) {M E μ τ μ' τ' : ℝ} (hM : 1 ≤ M) (hm : m ≤ 1) (hμ : |μ| ≤ M) (hτ : |τ| ≤ M)
    (hμ' : |μ' - μ| ≤ E) (hτ' : |τ' - τ| ≤ E) (hE : E ≤ M) (hX : 4 * M ≤ X) :
    |fl (τ' - μ') - (τ' - μ')| ≤ 4 * (u * M) ∧ |fl (τ' - μ')| ≤ 5 * M ∧ |fl (τ' - μ') - (τ - μ)| ≤ 2 * E + 4 * (u * M) := by
  have h1 : |τ' - μ'| ≤ 4 * M := by
    rw [abs_le] at *
    constructor <;> linarith
  have h2 := h.abs_err hu h1 (by linarith) hX
  have h3 : u * M ≤ M / 1000 := by nlinarith
  refine ⟨by linarith, ?_, ?_⟩
  · rw [abs_le] at *
    constructor <;> linarith
  · rw [abs_le] at *
    constructor <;> linarith

theorem means_step (h : Rounds u m X fl) (hu : 0 ≤ u) (hu' : u ≤ 1 / 1000) {M E μ τ μ' τ' : ℝ} {n k : ℕ} (hM : 1 ≤ M) (hm : m ≤ 1) (hμ : |μ| ≤ M) (hτ : |τ| ≤ M)
    (hμ' : |μ' - μ| ≤ E) (hτ' : |τ' - τ| ≤ E) (hE : E ≤ M) (hk : 0 < k) (hX : 10 * (M * (n + k : ℕ)) ≤ X) :
    |fl (μ' + fl (fl (fl (τ' - μ') * fl k) / fl ((n + k : ℕ) : ℝ))) - (μ + (τ - μ) * k / ((n + k : ℕ) : ℝ))| ≤ E + 40 * (u * M) := by
  have hk1 : (1 : ℝ) ≤ k := by exact_mod_cast hk
  have hnk : (1 : ℝ) ≤ (n + k : ℕ) := by exact_mod_cast (by omega : 1 ≤ n + k)
  have hkn : (k : ℝ) ≤ (n + k : ℕ) := by exact_mod_cast (by omega : k ≤ n + k)
  have hMn : M ≤ M * (n + k : ℕ) := by nlinarith
  have hMn' : ((n + k : ℕ) : ℝ) ≤ M * (n + k : ℕ) := by nlinarith
  have hMk : M * k ≤ M * (n + k : ℕ) := by nlinarith
  obtain ⟨d1, d2, -⟩ := diff_err h hu hu' hM hm hμ hτ hμ' hτ' hE (by linarith)
  have md := mulDiv_err h hu hu' (A := 1) (a := k) (b := n + k) d2 (by linarith) hm (by omega) (by linarith) le_rfl (by linarith) (by linarith) (by linarith) (by linarith)
  generalize fl (τ' - μ') = d at *
  generalize fl (fl (d * fl k) / fl ((n + k : ℕ) : ℝ)) = q at *
  generalize hr : ((n + k : ℕ) : ℝ) = N at *
  have hN : 0 < N := by linarith
  have r0 : 0 ≤ (k : ℝ) / N := by positivity
  have r1 : (k : ℝ) / N ≤ 1 := by rwa [div_le_one hN]
  have eq1 : d * k / N = d * (k / N) := by ring
  have eq2 : (τ - μ) * k / N = (τ - μ) * (k / N) := by ring
  rw [eq1] at md
  rw [eq2]
  generalize (k : ℝ) / N = r at *
  have huM : u * M ≤ M / 1000 := by nlinarith
  have huM0 : 0 ≤ u * M := by positivity
  have hdr : |d * r| ≤ 5 * M := by
    rw [abs_mul, abs_of_nonneg r0]
    nlinarith [abs_nonneg d]
  have hs : |μ' + q| ≤ 8 * M := by
    rw [abs_le] at *
    constructor <;> linarith
  have es := h.abs_err hu hs (by linarith) (by linarith)
  have hdd : |d * r - (τ' - μ') * r| ≤ 4 * (u * M) := by
    rw [← sub_mul, abs_mul, abs_of_nonneg r0]
    nlinarith [abs_nonneg (d - (τ' - μ'))]
  have hconv : |μ' + (τ' - μ') * r - (μ + (τ - μ) * r)| ≤ E := by
    have e : μ' + (τ' - μ') * r - (μ + (τ - μ) * r) = (1 - r) * (μ' - μ) + r * (τ' - τ) := by ring
    rw [e]
    calc _ ≤ |(1 - r) * (μ' - μ)| + |r * (τ' - τ)| := abs_add_le _ _
      _ = (1 - r) * |μ' - μ| + r * |τ' - τ| := by rw [abs_mul, abs_mul, abs_of_nonneg r0, abs_of_nonneg (by linarith : (0 : ℝ) ≤ 1 - r)]
      _ ≤ (1 - r) * E + r * E := add_le_add (mul_le_mul_of_nonneg_left hμ' (by linarith)) (mul_le_mul_of_nonneg_left hτ' r0)
      _ = E := by ring
  rw [abs_le] at *
  constructor <;> linarith

theorem diffs_err (h : Rounds u m X fl) (hu : 0 ≤ u) (hu' : u ≤ 1 / 1000) {M E d e d0 e0 : ℝ} (hM : 1 ≤ M) (hm : m ≤ 1)
    (a2 : |d| ≤ 5 * M) (b2 : |e| ≤ 5 * M) (b4 : |e0| ≤ 2 * M) (a3 : |d - d0| ≤ 2 * E + 4 * (u * M)) (b3 : |e - e0| ≤ 2 * E + 4 * (u * M)) (hX : 60 * M ^ 2 ≤ X) :
    |fl (d * e)| ≤ 26 * M ^ 2 ∧ |fl (d * e) - d0 * e0| ≤ 14 * (M * E) + 53 * (u * M ^ 2) := by
  have hM2 : M ≤ M ^ 2 := by nlinarith
  have huM : u * M ^ 2 ≤ M ^ 2 / 1000 := by
    have := mul_le_mul_of_nonneg_right hu' (sq_nonneg M)
    linarith
  have hde : |d * e| ≤ 25 * M ^ 2 := by
    rw [abs_mul]
    calc |d| * |e| ≤ 5 * M * (5 * M) := mul_le_mul a2 b2 (abs_nonneg _) (by positivity)
      _ = _ := by ring
  have c1 := h.abs_err hu hde (by linarith) (by linarith)
  have hde' : |d * e - d0 * e0| ≤ 14 * (M * E) + 28 * (u * M ^ 2) := by
    have e1 : d * e - d0 * e0 = d * (e - e0) + e0 * (d - d0) := by ring
    rw [e1]
    have k1 := mul_le_mul a2 b3 (abs_nonneg _) (by positivity)
    have k2 := mul_le_mul b4 a3 (abs_nonneg _) (by positivity)
    rw [← abs_mul] at k1 k2
    calc _ ≤ _ := abs_add_le (d * (e - e0)) (e0 * (d - d0))
      _ ≤ 5 * M * (2 * E + 4 * (u * M)) + 2 * M * (2 * E + 4 * (u * M)) := add_le_add k1 k2
      _ = _ := by ring
  constructor
  · rw [abs_le] at *
    constructor <;> linarith
  · rw [abs_le] at *
    constructor <;> linarith

theorem prod_step (h : Rounds u m X fl) (hu : 0 ≤ u) (hu' : u ≤ 1 / 1000) {M E γ P μ τ μ' τ' ν σ ν' σ' p p' q q' : ℝ} {n k : ℕ} (hM : 1 ≤ M) (hm : m ≤ 1)
    (hμ : |μ| ≤ M) (hτ : |τ| ≤ M) (hμ' : |μ' - μ| ≤ E) (hτ' : |τ' - τ| ≤ E) (hν : |ν| ≤ M) (hσ : |σ| ≤ M) (hν' : |ν' - ν| ≤ E) (hσ' : |σ' - σ| ≤ E) (hE : E ≤ M)
    (hp : |p| ≤ n * (4 * M ^ 2)) (hq : |q| ≤ k * (4 * M ^ 2)) (hp' : |p' - p| ≤ P) (hP : P ≤ n * M ^ 2) (hq' : |q' - q| ≤ k * γ) (hγ : γ ≤ M ^ 2) (hk : 0 < k)
    (hX : 60 * (M ^ 2 * (((n + k : ℕ) : ℝ) * (n + k : ℕ))) ≤ X) :
    |fl (p' + fl (q' + fl (fl (fl (fl (τ' - μ') * fl (σ' - ν')) * fl ((n * k : ℕ) : ℝ)) / fl ((n + k : ℕ) : ℝ)))) -
      (p + (q + (τ - μ) * (σ - ν) * ((n * k : ℕ) : ℝ) / ((n + k : ℕ) : ℝ)))| ≤
      P + k * (γ + 14 * (M * E) + 220 * (u * M ^ 2)) + (n + k : ℕ) * (40 * (u * M ^ 2)) := by
  have hk1 : (1 : ℝ) ≤ k := by exact_mod_cast hk
  have hn0 : (0 : ℝ) ≤ n := by positivity
  have hM2 : M ≤ M ^ 2 := by nlinarith
  have hnk : ((n + k : ℕ) : ℝ) = n + k := by push_cast; ring
  have hN1 : (1 : ℝ) ≤ (n + k : ℕ) := by rw [hnk]; linarith
  have hNN : ((n + k : ℕ) : ℝ) ≤ ((n + k : ℕ) : ℝ) * (n + k : ℕ) := le_mul_of_one_le_left (by positivity) hN1
  have hnkN : ((n * k : ℕ) : ℝ) ≤ ((n + k : ℕ) : ℝ) * k := by
    rw [hnk, Nat.cast_mul]
    exact mul_le_mul_of_nonneg_right (by linarith) (by linarith)
  have hnkN' : ((n * k : ℕ) : ℝ) ≤ ((n + k : ℕ) : ℝ) * (n + k : ℕ) := by
    refine hnkN.trans (mul_le_mul_of_nonneg_left ?_ (by linarith))
    rw [hnk]; linarith
  have hM2N : M ^ 2 * ((n + k : ℕ) : ℝ) ≤ M ^ 2 * (((n + k : ℕ) : ℝ) * (n + k : ℕ)) := mul_le_mul_of_nonneg_left hNN (by positivity)
  have hM2nk : M ^ 2 * ((n * k : ℕ) : ℝ) ≤ M ^ 2 * (((n + k : ℕ) : ℝ) * (n + k : ℕ)) := mul_le_mul_of_nonneg_left hnkN' (by positivity)
  have hM1 : 1 ≤ M ^ 2 := by linarith
  have hNM : ((n + k : ℕ) : ℝ) ≤ M ^ 2 * ((n + k : ℕ) : ℝ) := le_mul_of_one_le_left (by positivity) hM1
  have hMN : M ^ 2 ≤ M ^ 2 * ((n + k : ℕ) : ℝ) := le_mul_of_one_le_right (by positivity) hN1
  have hnkM : ((n * k : ℕ) : ℝ) ≤ M ^ 2 * ((n * k : ℕ) : ℝ) := le_mul_of_one_le_left (by positivity) hM1
  have hkM : M ^ 2 * (k : ℝ) ≤ M ^ 2 * ((n + k : ℕ) : ℝ) := mul_le_mul_of_nonneg_left (by rw [hnk]; linarith) (by positivity)
  obtain ⟨-, a2, a3⟩ := diff_err h hu hu' hM hm hμ hτ hμ' hτ' hE (by linarith)
  obtain ⟨-, b2, b3⟩ := diff_err h hu hu' hM hm hν hσ hν' hσ' hE (by linarith)
  have a4 : |τ - μ| ≤ 2 * M := by
    rw [abs_le] at *
    constructor <;> linarith
  have b4 : |σ - ν| ≤ 2 * M := by
    rw [abs_le] at *
    constructor <;> linarith
  generalize fl (τ' - μ') = d at *
  generalize fl (σ' - ν') = e at *
  generalize τ - μ = d0 at *
  generalize σ - ν = e0 at *
  have huM : u * M ^ 2 ≤ M ^ 2 / 1000 := by
    have := mul_le_mul_of_nonneg_right hu' (sq_nonneg M)
    linarith
  have huM0 : 0 ≤ u * M ^ 2 := by positivity
  obtain ⟨c2, hfd⟩ := diffs_err h hu hu' hM hm a2 b2 b4 a3 b3 (by linarith)
  have md := mulDiv_err h hu hu' (A := k) (a := n * k) (b := n + k) c2 (by linarith) hm (by omega) hnkN hk1 (by linarith) (by linarith) (by linarith) (by linarith)
  generalize fl (d * e) = f at *
  generalize fl (fl (f * fl ((n * k : ℕ) : ℝ)) / fl ((n + k : ℕ) : ℝ)) = x at *
  have hr1 : ((n * k : ℕ) : ℝ) / ((n + k : ℕ) : ℝ) ≤ k := by
    rw [div_le_iff₀ (by linarith), mul_comm (k : ℝ)]
    exact hnkN
  have hr0 : 0 ≤ ((n * k : ℕ) : ℝ) / ((n + k : ℕ) : ℝ) := by positivity
  have eq1 : f * ((n * k : ℕ) : ℝ) / ((n + k : ℕ) : ℝ) = f * (((n * k : ℕ) : ℝ) / ((n + k : ℕ) : ℝ)) := by ring
  have eq2 : d0 * e0 * ((n * k : ℕ) : ℝ) / ((n + k : ℕ) : ℝ) = d0 * e0 * (((n * k : ℕ) : ℝ) / ((n + k : ℕ) : ℝ)) := by ring
  rw [eq1] at md
  rw [eq2]
  generalize ((n * k : ℕ) : ℝ) / ((n + k : ℕ) : ℝ) = r at *
  have hfr : |f * r - d0 * e0 * r| ≤ k * (14 * (M * E) + 53 * (u * M ^ 2)) := by
    rw [← sub_mul, abs_mul, abs_of_nonneg hr0, mul_comm]
    exact mul_le_mul hr1 hfd (abs_nonneg _) (by linarith)
  have hfr2 : |f * r| ≤ k * (26 * M ^ 2) := by
    rw [abs_mul, abs_of_nonneg hr0, mul_comm]
    exact mul_le_mul hr1 c2 (abs_nonneg _) (by linarith)
  have hkuM0 : 0 ≤ k * (u * M ^ 2) := by positivity
  have hkuM : k * (u * M ^ 2) ≤ k * (M ^ 2 / 1000) := mul_le_mul_of_nonneg_left huM (by linarith)
  have hkγ : k * γ ≤ k * M ^ 2 := mul_le_mul_of_nonneg_left hγ (by linarith)
  have hqx : |q' + x| ≤ k * (34 * M ^ 2) := by
    rw [abs_le] at *
    constructor <;> linarith
  have hMk1 : M ^ 2 ≤ k * M ^ 2 := le_mul_of_one_le_left (by positivity) hk1
  have ey := h.abs_err hu hqx (by linarith) (by linarith)
  generalize fl (q' + x) = y at *
  have hNuM : ((n + k : ℕ) : ℝ) * (u * M ^ 2) = n * (u * M ^ 2) + k * (u * M ^ 2) := by rw [hnk]; ring
  have hnuM0 : 0 ≤ n * (u * M ^ 2) := by positivity
  have hNM2 : ((n + k : ℕ) : ℝ) * M ^ 2 = n * M ^ 2 + k * M ^ 2 := by rw [hnk]; ring
  have hnM0 : 0 ≤ (n : ℝ) * M ^ 2 := by positivity
  have hpy : |p' + y| ≤ ((n + k : ℕ) : ℝ) * (36 * M ^ 2) := by
    rw [abs_le] at *
    constructor <;> linarith
  have ez := h.abs_err hu hpy (by linarith) (by linarith)
  rw [abs_le] at *
  constructor <;> linarith

end Step

end Verif.PanSharp
