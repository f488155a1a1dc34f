import Verif.PanSharp.RoundingProps

/-!
# C116: pan-sharpening statistics for every schedule of threads

The theorems of C116.
-/

set_option autoImplicit false

namespace Verif.PanSharp
open Verif.Tiles Verif.Ortho

section Fold
variable {u m X : ℝ} {fl : ℝ → ℝ}

/-- State of the aggregation after `k` tiles with the pixels `l`. -/
structure Near (u M T : ℝ) (i j : ℕ) (k : ℝ) (s : Agg ℝ) (l : List (ℕ → ℝ)) : Prop where
  n : s.n = l.length
  mi : |s.means i - (tileStats l).means i| ≤ 3 * (T * u * M) + k * (40 * (u * M))
  mj : |s.means j - (tileStats l).means j| ≤ 3 * (T * u * M) + k * (40 * (u * M))
  pij : |s.prod i j - (tileStats l).prod i j| ≤ l.length * (82 * (T * u * M ^ 2) + k * (900 * (u * M ^ 2)))

theorem near_step (h : Rounds u m X fl) (hu : 0 ≤ u) {M T k : ℝ} (hM : 1 ≤ M) (hm : m ≤ 1) (hT1 : 1 ≤ T) (hk : 0 ≤ k) (hTk : 1000 * ((T + k) * u) ≤ 1)
    {i j : ℕ} {s t : Agg ℝ} {l a : List (ℕ → ℝ)} (hs : Near u M T i j k s l) (ht : TileFl fl a t) (hl : ∀ v ∈ l ++ a, |v i| ≤ M ∧ |v j| ≤ M) (hT : (a.length : ℝ) ≤ T)
    (hX1 : 20 * (T * M ^ 2) ≤ X) (hX2 : 60 * (M ^ 2 * (((l ++ a).length : ℝ) * (l ++ a).length)) ≤ X) :
    Near u M T i j (k + 1) (s.addFl fl t) (l ++ a) := by
  have hM0 : 0 ≤ M := by linarith
  have hT0 : 0 ≤ T := by linarith
  have hM2 : M ≤ M ^ 2 := by nlinarith
  have huM : 0 ≤ u * M := by positivity
  have huM2 : 0 ≤ u * M ^ 2 := by positivity
  have hku : 0 ≤ k * u := by positivity
  have hTu : 0 ≤ T * u := by positivity
  have hTku : 1000 * (T * u) + 1000 * (k * u) ≤ 1 := by linarith
  have hu' : u ≤ 1 / 1000 := by nlinarith
  have hmono : (l.length : ℝ) * (82 * (T * u * M ^ 2) + k * (900 * (u * M ^ 2))) ≤ l.length * (82 * (T * u * M ^ 2) + (k + 1) * (900 * (u * M ^ 2))) :=
    mul_le_mul_of_nonneg_left (by linarith) (by positivity)
  by_cases ha : a = []
  · have h0 : ¬ t.n > 0 := by rw [ht.n, ha]; simp
    unfold Agg.addFl
    rw [if_neg h0, ha, List.append_nil]
    exact ⟨hs.n, hs.mi.trans (by linarith), hs.mj.trans (by linarith), hs.pij.trans hmono⟩
  have han : 0 < a.length := List.length_pos_iff.2 ha
  have htn : t.n > 0 := by rw [ht.n]; exact han
  have li : ∀ v ∈ l, |v i| ≤ M := fun v hv => (hl v (by simp [hv])).1
  have lj : ∀ v ∈ l, |v j| ≤ M := fun v hv => (hl v (by simp [hv])).2
  have ai : ∀ v ∈ a, |v i| ≤ M := fun v hv => (hl v (by simp [hv])).1
  have aj : ∀ v ∈ a, |v j| ≤ M := fun v hv => (hl v (by simp [hv])).2
  have hTM : T * M ≤ T * M ^ 2 := mul_le_mul_of_nonneg_left hM2 hT0
  have hTM0 : 0 ≤ T * M := by positivity
  have tmi := tile_mean_err h hu hu' hM hm ht ai hT hT1 (by linarith) (by linarith)
  have tmj := tile_mean_err h hu hu' hM hm ht aj hT hT1 (by linarith) (by linarith)
  have tp := tile_prod_err h hu hu' hM hm ht ai aj hT hT1 (by linarith) hX1
  have hk40 : 0 ≤ k * (40 * (u * M)) := by positivity
  have hlen : ((l ++ a).length : ℝ) = ((l.length + a.length : ℕ) : ℝ) := by rw [List.length_append]
  rw [hlen] at hX2
  have hN1 : (1 : ℝ) ≤ ((l.length + a.length : ℕ) : ℝ) := by exact_mod_cast (by omega : 1 ≤ l.length + a.length)
  have hE : 3 * (T * u * M) + k * (40 * (u * M)) ≤ M := by
    have : 3 * (T * u * M) + k * (40 * (u * M)) = (3 * (T * u) + 40 * (k * u)) * M := by ring
    rw [this]
    nlinarith
  have hG : 82 * (T * u * M ^ 2) + k * (900 * (u * M ^ 2)) ≤ M ^ 2 := by
    have : 82 * (T * u * M ^ 2) + k * (900 * (u * M ^ 2)) = (82 * (T * u) + 900 * (k * u)) * M ^ 2 := by ring
    rw [this]
    have : 0 ≤ M ^ 2 := by positivity
    nlinarith
  have hγ : 40 * (T * u * M ^ 2) ≤ M ^ 2 := by
    have h1 : 0 ≤ T * u * M ^ 2 := by positivity
    have h2 : 0 ≤ k * (900 * (u * M ^ 2)) := by positivity
    linarith
  have hNX : 10 * (M * ((l.length + a.length : ℕ) : ℝ)) ≤ X := by
    have h1 : ((l.length + a.length : ℕ) : ℝ) ≤ ((l.length + a.length : ℕ) : ℝ) * ((l.length + a.length : ℕ) : ℝ) := le_mul_of_one_le_left (by positivity) hN1
    have h2 := mul_le_mul hM2 h1 (by positivity) (by positivity)
    have h3 : 0 ≤ M * ((l.length + a.length : ℕ) : ℝ) := by positivity
    linarith
  have mi := tileStats_mean_abs hM0 li
  have mj := tileStats_mean_abs hM0 lj
  have ni := tileStats_mean_abs hM0 ai
  have nj := tileStats_mean_abs hM0 aj
  have exact_ : tileStats (l ++ a) = (tileStats l).add (tileStats a) := (add_tileStats l a).symm
  have en1 : (tileStats l).n = l.length := rfl
  have en2 : (tileStats a).n = a.length := rfl
  have hadd : (tileStats l).add (tileStats a) =
      { n := l.length + a.length
        means := fun i => (tileStats l).means i + ((tileStats a).means i - (tileStats l).means i) * a.length / ((l.length + a.length : ℕ) : ℝ)
        prod := fun i j => (tileStats l).prod i j + ((tileStats a).prod i j + ((tileStats a).means i - (tileStats l).means i) *
          ((tileStats a).means j - (tileStats l).means j) * ((l.length * a.length : ℕ) : ℝ) / ((l.length + a.length : ℕ) : ℝ)) } := by
    unfold Agg.add
    rw [if_pos (by rw [en2]; exact han), en1, en2]
  have haddFl : s.addFl fl t =
      { n := l.length + a.length
        means := fun i => fl (s.means i + fl (fl (fl (t.means i - s.means i) * fl a.length) / fl ((l.length + a.length : ℕ) : ℝ)))
        prod := fun i j => fl (s.prod i j + fl (t.prod i j + fl (fl (fl (fl (t.means i - s.means i) * fl (t.means j - s.means j)) *
          fl ((l.length * a.length : ℕ) : ℝ)) / fl ((l.length + a.length : ℕ) : ℝ)))) } := by
    unfold Agg.addFl
    rw [if_pos htn, hs.n, ht.n]
  rw [haddFl]
  rw [hadd] at exact_
  refine ⟨by simp, ?_, ?_, ?_⟩
  · rw [exact_]
    have := means_step h hu hu' hM hm mi ni hs.mi (tmi.trans (by linarith)) hE han hNX
    refine this.trans (by linarith)
  · rw [exact_]
    have := means_step h hu hu' hM hm mj nj hs.mj (tmj.trans (by linarith)) hE han hNX
    refine this.trans (by linarith)
  · rw [exact_]
    have := prod_step h hu hu' hM hm mi ni hs.mi (tmi.trans (by linarith)) mj nj hs.mj (tmj.trans (by linarith)) hE
      (tileStats_prod_abs hM0 li lj) (tileStats_prod_abs hM0 ai aj) hs.pij (mul_le_mul_of_nonneg_left hG (by positivity)) tp hγ han hX2
    refine this.trans ?_
    rw [List.length_append]
    push_cast
    have hl0 : (0 : ℝ) ≤ l.length := by positivity
    have ha0 : (0 : ℝ) ≤ a.length := by positivity
    have e1 := mul_nonneg hl0 huM2
    have e2 := mul_nonneg ha0 huM2
    have e3 := mul_nonneg ha0 (mul_nonneg hk huM2)
    nlinarith [e1, e2, e3]

theorem near_fold (h : Rounds u m X fl) (hu : 0 ≤ u) {M T K N : ℝ} (hM : 1 ≤ M) (hm : m ≤ 1) (hT1 : 1 ≤ T) (hTk : 1000 * ((T + K) * u) ≤ 1)
    (hX1 : 20 * (T * M ^ 2) ≤ X) (hX2 : 60 * (M ^ 2 * (N * N)) ≤ X) {i j : ℕ} {ls : List (List (ℕ → ℝ))} {ts : List (Agg ℝ)} (ht : List.Forall₂ (TileFl fl) ls ts) :
    ∀ (k : ℝ) (s : Agg ℝ) (l : List (ℕ → ℝ)), 0 ≤ k → k + ls.length ≤ K → Near u M T i j k s l → (∀ v ∈ l ++ ls.flatten, |v i| ≤ M ∧ |v j| ≤ M) →
      (∀ a ∈ ls, (a.length : ℝ) ≤ T) → ((l ++ ls.flatten).length : ℝ) ≤ N → Near u M T i j (k + ls.length) (ts.foldl (Agg.addFl fl) s) (l ++ ls.flatten) := by
  induction ht with
  | nil => intro k s l _ _ hs _ _ _; simpa using hs
  | @cons a t ls ts h1 _ ih =>
    intro k s l hk hkK hs hv ha hN
    rw [List.flatten_cons, ← List.append_assoc] at hv hN ⊢
    rw [List.length_cons] at hkK ⊢
    push_cast at hkK ⊢
    have hL : ((l ++ a).length : ℝ) ≤ N := by
      refine le_trans ?_ hN
      rw [List.length_append (as := l ++ a)]
      push_cast
      linarith [Nat.cast_nonneg (α := ℝ) ls.flatten.length]
    have hlen0 : (0 : ℝ) ≤ ls.length := by positivity
    have hstep := near_step h hu hM hm hT1 hk (by nlinarith) hs h1 (fun v hv' => hv v (by
      rw [List.mem_append]; exact Or.inl hv')) (ha a (by simp)) hX1 (by
        refine le_trans ?_ hX2
        have h0 : (0 : ℝ) ≤ (l ++ a).length := by positivity
        have := mul_le_mul hL hL h0 (h0.trans hL)
        have hM2 : 0 ≤ M ^ 2 := by positivity
        nlinarith)
    have := ih (k + 1) (s.addFl fl t) (l ++ a) (by linarith) (by linarith) hstep hv (fun b hb => ha b (by simp [hb])) hN
    rw [List.foldl_cons, show k + ((ls.length : ℝ) + 1) = k + 1 + ls.length by ring]
    exact this

end Fold

/-! ## Number of pixels of a tile -/

theorem tilePix_length (im : Images ℝ) (w : Win) : (im.tilePix w).length ≤ w.height * w.width := by
  unfold Images.tilePix
  rw [List.length_flatMap]
  calc _ ≤ ((List.range w.height).map fun _ => w.width).sum := by
        apply List.sum_le_sum
        intro r _
        exact (List.length_filterMap_le _ _).trans (by simp)
    _ = _ := by simp

theorem cov_err {u m X : ℝ} {fl : ℝ → ℝ} (h : Rounds u m X fl) (hu : 0 ≤ u) (hu' : u ≤ 1 / 1000) {M G d d0 : ℝ} {n : ℕ} (hM : 1 ≤ M) (hm : m ≤ 1) (hn : 2 ≤ n)
    (hd0 : |d0| ≤ n * (4 * M ^ 2)) (hdd : |d - d0| ≤ n * G) (hG : G ≤ M ^ 2) (hXM : 60 * M ^ 2 ≤ X) (hXn : (n : ℝ) ≤ X) :
    |fl (d / fl ((n - 1 : ℕ) : ℝ)) - d0 / (n - 1)| ≤ 2 * G + 21 * (u * M ^ 2) := by
  have hn1 : ((n - 1 : ℕ) : ℝ) = n - 1 := by
    rw [Nat.cast_sub (by omega)]
    simp
  have hc2 : (2 : ℝ) ≤ n := by exact_mod_cast hn
  have en := flNat_err h hu hm (a := n - 1) (by rw [hn1]; linarith)
  rw [hn1] at en ⊢
  generalize fl ((n : ℝ) - 1) = b' at *
  generalize (n : ℝ) = c at *
  have hb : 0 < c - 1 := by linarith
  have hub : u * (c - 1) ≤ (c - 1) / 1000 := by
    have := mul_le_mul_of_nonneg_right hu' hb.le
    linarith
  have hb' : 0.999 * (c - 1) ≤ b' := by
    rw [abs_le] at en
    linarith
  have hb'pos : 0 < b' := by linarith
  have hMM : 0 ≤ M ^ 2 := by positivity
  have hM2 : 1 ≤ M ^ 2 := by nlinarith
  have huM2 : 0 ≤ u * M ^ 2 := by positivity
  have hcG : c * G ≤ c * M ^ 2 := mul_le_mul_of_nonneg_left hG (by linarith)
  have hG0 : 0 ≤ G := by
    by_contra hneg
    push Not at hneg
    have : c * G < 0 := mul_neg_of_pos_of_neg (by linarith) hneg
    linarith [abs_nonneg (d - d0)]
  have hd : |d| ≤ c * (5 * M ^ 2) := by
    rw [abs_le] at *
    constructor <;> linarith
  have hq : |d / b'| ≤ 10.1 * M ^ 2 := by
    rw [abs_div, abs_of_pos hb'pos, div_le_iff₀ hb'pos]
    have h1 := mul_le_mul_of_nonneg_left hb' hMM
    have h2 : c * M ^ 2 ≤ 2 * (c - 1) * M ^ 2 := mul_le_mul_of_nonneg_right (by linarith) hMM
    have h3 : 0 ≤ (c - 1) * M ^ 2 := by positivity
    linarith
  have hmid : |d / b' - d / (c - 1)| ≤ 10.1 * (u * M ^ 2) := by
    have : d / b' - d / (c - 1) = d / b' * ((c - 1 - b') / (c - 1)) := by field_simp
    rw [this, abs_mul, abs_div (c - 1 - b'), abs_of_pos hb, abs_sub_comm (c - 1) b']
    have h1 : |b' - (c - 1)| / (c - 1) ≤ u := by rwa [div_le_iff₀ hb]
    calc |d / b'| * (|b' - (c - 1)| / (c - 1)) ≤ 10.1 * M ^ 2 * u := mul_le_mul hq h1 (by positivity) (by positivity)
      _ = _ := by ring
  have hlast : |d / (c - 1) - d0 / (c - 1)| ≤ 2 * G := by
    rw [← sub_div, abs_div, abs_of_pos hb, div_le_iff₀ hb]
    have h2 : c * G ≤ 2 * (c - 1) * G := mul_le_mul_of_nonneg_right (by linarith) hG0
    linarith
  have eq := h.abs_err hu hq (by linarith) (by linarith)
  have t1 := abs_add_le (fl (d / b') - d / b' + (d / b' - d / (c - 1))) (d / (c - 1) - d0 / (c - 1))
  have t2 := abs_add_le (fl (d / b') - d / b') (d / b' - d / (c - 1))
  have e : fl (d / b') - d0 / (c - 1) = fl (d / b') - d / b' + (d / b' - d / (c - 1)) + (d / (c - 1) - d0 / (c - 1)) := by ring
  rw [e]
  linarith

/-- Statistics from any execution of `_get_stats`, for rounding with unit `u`, at most `T` valid pixels in a tile and `K` tiles. -/
theorem stats_near {u m X : ℝ} {fl : ℝ → ℝ} (h : Rounds u m X fl) (hu : 0 ≤ u) (hm : m ≤ 1) (im : Images ℝ) (order : List Win) (means : ℕ → ℝ) (cov : ℕ → ℕ → ℝ)
    (hs : im.StatsFl fl order means cov) {M T : ℝ} (hM : 1 ≤ M) (hT1 : 1 ≤ T) (hT : ∀ w ∈ order, ((im.tilePix w).length : ℝ) ≤ T)
    (hTk : 1000 * ((T + order.length) * u) ≤ 1) {P : Finset (ℕ × ℕ)} (hP : (order.flatMap im.tilePix).Perm P.toList)
    (hX : 60 * (M ^ 2 * ((T * (order.length + 1)) * (T * (order.length + 1)))) ≤ X) (i j : ℕ) (hv : ∀ p ∈ P, |im.vec p i| ≤ M ∧ |im.vec p j| ≤ M) :
    |means i - batchMean P im.vec i| ≤ 40 * ((T + order.length) * u * M) ∧
    (2 ≤ P.card → |cov i j - batchCov P im.vec i j| ≤ 2000 * ((T + order.length) * u * M ^ 2)) := by
  obtain ⟨ts, ht, rfl, rfl⟩ := hs
  obtain ⟨f1, f2, f3⟩ := tileStats_finset P im.vec _ hP
  have hM0 : 0 ≤ M := by linarith
  have hT0 : 0 ≤ T := by linarith
  have hK0 : (0 : ℝ) ≤ order.length := by positivity
  have hM2 : M ≤ M ^ 2 := by nlinarith
  have ht' : List.Forall₂ (TileFl fl) (order.map fun w => (im.tilePix w).map im.vec) ts := by
    rw [List.forall₂_map_left_iff]
    exact ht
  have hflat : (order.map fun w => (im.tilePix w).map im.vec).flatten = (order.flatMap im.tilePix).map im.vec := by
    rw [List.map_flatMap, List.flatMap_def]
  have hN : ∀ o : List Win, (∀ w ∈ o, ((im.tilePix w).length : ℝ) ≤ T) → ((o.flatMap im.tilePix).length : ℝ) ≤ T * o.length := by
    intro o
    induction o with
    | nil => simp
    | cons w o ih =>
      intro hw
      rw [List.flatMap_cons, List.length_append, List.length_cons]
      push_cast
      have := ih fun w' h' => hw w' (by simp [h'])
      have := hw w (by simp)
      linarith
  have hN := hN order hT
  have hTK : 1 ≤ T * (order.length + 1) := by nlinarith
  have hTT : T ≤ (T * (order.length + 1)) * (T * (order.length + 1)) := by nlinarith
  have near := near_fold h hu (K := order.length) (N := T * (order.length + 1)) hM hm hT1 hTk (by
      have : 0 ≤ M ^ 2 := by positivity
      nlinarith) hX (i := i) (j := j) ht' 0 ⟨0, fun _ => 0, fun _ _ => 0⟩ [] le_rfl (by simp) (by
      refine ⟨rfl, ?_, ?_, ?_⟩
      · have : (tileStats ([] : List (ℕ → ℝ))).means i = 0 := by simp [tileStats]
        rw [this, sub_zero, abs_zero]
        positivity
      · have : (tileStats ([] : List (ℕ → ℝ))).means j = 0 := by simp [tileStats]
        rw [this, sub_zero, abs_zero]
        positivity
      · simp [tileStats]) (by
      intro v hv'
      rw [List.nil_append, hflat, List.mem_map] at hv'
      obtain ⟨p, hp, rfl⟩ := hv'
      exact hv p (Finset.mem_toList.1 (hP.mem_iff.1 hp))) (by
      intro a ha
      obtain ⟨w, hw, rfl⟩ := List.mem_map.1 ha
      rw [List.length_map]
      exact hT w hw) (by
      rw [List.nil_append, hflat, List.length_map]
      linarith)
  rw [List.nil_append, hflat, List.length_map, zero_add] at near
  change Near u M T i j order.length (aggregateFl fl ts) _ at near
  generalize aggregateFl fl ts = s at *
  have nn := near.n
  have ni := near.mi
  have np := near.pij
  have hlenP : ((order.flatMap im.tilePix).map im.vec).length = P.card := f1
  rw [hlenP] at nn np
  rw [f2] at ni
  rw [f3] at np
  have huM : 0 ≤ u * M := by positivity
  have huM2 : 0 ≤ u * M ^ 2 := by positivity
  have hTuM : 0 ≤ T * u * M := by positivity
  have hTuM2 : 0 ≤ T * u * M ^ 2 := by positivity
  have hku : 0 ≤ (order.length : ℝ) * (u * M ^ 2) := by positivity
  refine ⟨ni.trans (by linarith), fun hc => ?_⟩
  have hcard : (2 : ℝ) ≤ P.card := by exact_mod_cast hc
  have hcN : (P.card : ℝ) ≤ T * order.length := by
    rw [← hlenP, List.length_map]
    exact hN
  have hdev : |batchDev P im.vec i j| ≤ P.card * (4 * M ^ 2) := by
    rw [← f3, ← hlenP]
    refine tileStats_prod_abs hM0 ?_ ?_
    · intro v hv'
      obtain ⟨p, hp, rfl⟩ := List.mem_map.1 hv'
      exact (hv p (Finset.mem_toList.1 (hP.mem_iff.1 hp))).1
    · intro v hv'
      obtain ⟨p, hp, rfl⟩ := List.mem_map.1 hv'
      exact (hv p (Finset.mem_toList.1 (hP.mem_iff.1 hp))).2
  have hG : 82 * (T * u * M ^ 2) + order.length * (900 * (u * M ^ 2)) ≤ M ^ 2 := by
    have h1 : 82 * (T * u * M ^ 2) + order.length * (900 * (u * M ^ 2)) ≤ 1000 * ((T + order.length) * u) * M ^ 2 := by linarith
    have h2 : 0 ≤ M ^ 2 := by positivity
    nlinarith
  have hTN : T * order.length ≤ (T * (order.length + 1)) * (T * (order.length + 1)) := by nlinarith
  have hXM : 60 * M ^ 2 ≤ X := by
    have : 0 ≤ M ^ 2 := by positivity
    nlinarith
  have hXc : (P.card : ℝ) ≤ X := by
    have h1 : 1 ≤ M ^ 2 := by linarith
    have h2 : 0 ≤ (T * (order.length + 1)) * (T * (order.length + 1)) := by positivity
    nlinarith
  have hu' : u ≤ 1 / 1000 := by nlinarith
  have key := cov_err h hu hu' hM hm hc hdev np hG hXM hXc
  show |fl (s.prod i j / fl ((s.n - 1 : ℕ) : ℝ)) - batchDev P im.vec i j / (P.card - 1)| ≤ _
  rw [nn]
  have hT1' : u * M ^ 2 ≤ T * u * M ^ 2 := by nlinarith
  linarith

end Verif.PanSharp
