import Verif.PanSharp.Schedule

/-!
# C116: is pan-sharpening repeatable?

Statistics of the same images in two runs are as close as their errors, but not identical.
-/

set_option autoImplicit false

namespace Verif.PanSharp
open Verif.Tiles Verif.Ortho

/-- C116: in `float64`, in whatever order tiles complete, and in whatever order numpy adds numbers, the means of `_get_stats` are the means over all valid pixels, and its
covariances the unbiased covariances, up to the given errors.  `M` bounds the values of pixels. -/
theorem C116_accurate_partial (fl : ℝ → ℝ) (hfl : Rounds64 fl) (im : Images ℝ) (info : ImInfo) (ws order : List Win)
    (hw : blockWindows info (some (1024, 1024)) = .ok ws) (ho : order.Perm ws) (hK : ws.length ≤ 2 ^ 40) (M : ℝ) (hM : 1 ≤ M) (hM' : M ≤ 2 ^ 200)
    (hv : ∀ p ∈ im.validPix info.height info.width, ∀ i ≤ im.n, |im.vec p i| ≤ M) (means : ℕ → ℝ) (cov : ℕ → ℕ → ℝ) (hs : im.StatsFl fl order means cov) :
    let P := im.validPix info.height info.width
    ∀ i ≤ im.n, |means i - batchMean P im.vec i| ≤ 40 * (2 ^ 20 + ws.length) / 2 ^ 53 * M ∧
      (2 ≤ P.card → ∀ j ≤ im.n, |cov i j - batchCov P im.vec i j| ≤ 2000 * (2 ^ 20 + ws.length) / 2 ^ 53 * M ^ 2) := by
  intro P i hi
  have hlen := ho.length_eq
  have hT : ∀ w ∈ order, ((im.tilePix w).length : ℝ) ≤ 2 ^ 20 := by
    intro w hwo
    obtain ⟨-, -, h3, h4⟩ := mem_blockWindows hw (ho.mem_iff.1 hwo)
    have h5 : w.width ≤ 1024 := by
      rw [h3]
      change min (w.colOff + 1024) info.width - w.colOff ≤ 1024
      omega
    have h6 : w.height ≤ 1024 := by
      rw [h4]
      change min (w.rowOff + 1024) info.height - w.rowOff ≤ 1024
      omega
    have h7 := (tilePix_length im w).trans (Nat.mul_le_mul h6 h5)
    have h8 : ((im.tilePix w).length : ℝ) ≤ ((1024 * 1024 : ℕ) : ℝ) := by exact_mod_cast h7
    refine h8.trans (by norm_num)
  have hK' : (order.length : ℝ) ≤ 2 ^ 40 := by
    rw [hlen]
    exact_mod_cast hK
  have hK0 : (0 : ℝ) ≤ order.length := by positivity
  have hA : 1000 * (((2 : ℝ) ^ 20 + order.length) * (1 / 2 ^ 53)) ≤ 1 := by
    generalize (order.length : ℝ) = q at *
    norm_num at hK' ⊢
    linarith
  have hB : (2 : ℝ) ^ 20 * (order.length + 1) ≤ 2 ^ 63 := by
    generalize (order.length : ℝ) = q at *
    norm_num at hK' ⊢
    linarith
  have hm : (1 : ℝ) / 2 ^ 1022 ≤ 1 := by
    rw [div_le_one (by positivity)]
    exact one_le_pow₀ (by norm_num)
  have key := fun (j : ℕ) (hj : j ≤ im.n) => stats_near hfl (by positivity) hm im order means cov hs hM (T := 2 ^ 20) (by norm_num) hT
    hA (tiles_perm im (C01_tiles_partition _ _ _ hw) ho) (by
      have h1 : M ^ 2 ≤ (2 ^ 200) ^ 2 := pow_le_pow_left₀ (by linarith) hM' 2
      have h3 : (2 : ℝ) ^ 20 * (order.length + 1) * (2 ^ 20 * (order.length + 1)) ≤ 2 ^ 63 * 2 ^ 63 := mul_le_mul hB hB (by positivity) (by positivity)
      have h4 : M ^ 2 * ((2 : ℝ) ^ 20 * (order.length + 1) * (2 ^ 20 * (order.length + 1))) ≤ (2 ^ 200) ^ 2 * (2 ^ 63 * 2 ^ 63) := mul_le_mul h1 h3 (by positivity) (by positivity)
      calc _ ≤ (60 : ℝ) * ((2 ^ 200) ^ 2 * (2 ^ 63 * 2 ^ 63)) := by linarith
        _ ≤ 2 ^ 6 * ((2 ^ 200) ^ 2 * (2 ^ 63 * 2 ^ 63)) := mul_le_mul_of_nonneg_right (by norm_num) (by positivity)
        _ = 2 ^ 532 := by rw [← pow_mul, ← pow_add, ← pow_add, ← pow_add]
        _ ≤ 2 ^ 1023 := pow_le_pow_right₀ (by norm_num) (by norm_num)) i j (fun p hp => ⟨hv p hp i hi, hv p hp j hj⟩)
  rw [← hlen]
  constructor
  · refine (key i hi).1.trans (le_of_eq ?_)
    ring
  · intro hc j hj
    refine ((key j hj).2 hc).trans (le_of_eq ?_)
    ring

/-- C116: two runs with the same images give means and covariances that differ by at most twice the errors. -/
theorem C116_runs_partial (fl : ℝ → ℝ) (hfl : Rounds64 fl) (im : Images ℝ) (info : ImInfo) (ws order order' : List Win)
    (hw : blockWindows info (some (1024, 1024)) = .ok ws) (ho : order.Perm ws) (ho' : order'.Perm ws) (hK : ws.length ≤ 2 ^ 40) (M : ℝ) (hM : 1 ≤ M) (hM' : M ≤ 2 ^ 200)
    (hv : ∀ p ∈ im.validPix info.height info.width, ∀ i ≤ im.n, |im.vec p i| ≤ M) (means means' : ℕ → ℝ) (cov cov' : ℕ → ℕ → ℝ)
    (hs : im.StatsFl fl order means cov) (hs' : im.StatsFl fl order' means' cov') :
    ∀ i ≤ im.n, |means i - means' i| ≤ 80 * (2 ^ 20 + ws.length) / 2 ^ 53 * M ∧
      (2 ≤ (im.validPix info.height info.width).card → ∀ j ≤ im.n, |cov i j - cov' i j| ≤ 4000 * (2 ^ 20 + ws.length) / 2 ^ 53 * M ^ 2) := by
  intro i hi
  obtain ⟨a1, a2⟩ := C116_accurate_partial fl hfl im info ws order hw ho hK M hM hM' hv means cov hs i hi
  obtain ⟨b1, b2⟩ := C116_accurate_partial fl hfl im info ws order' hw ho' hK M hM hM' hv means' cov' hs' i hi
  constructor
  · rw [abs_le] at *
    constructor <;> linarith
  · intro hc j hj
    have c1 := a2 hc j hj
    have c2 := b2 hc j hj
    rw [abs_le] at *
    constructor <;> linarith

/-! ## Executions exist -/

theorem sumFl_exists (fl : ℝ → ℝ) {l : List ℝ} (hl : l ≠ []) : ∃ S, SumFl fl l S := by
  induction l with
  | nil => exact absurd rfl hl
  | cons x l ih =>
    by_cases h : l = []
    · subst h
      exact ⟨x, .one x⟩
    · obtain ⟨S, hS⟩ := ih h
      exact ⟨_, (SumFl.one x).add hS⟩

theorem dotFl_exists (fl : ℝ → ℝ) (xy : List (ℝ × ℝ)) : ∃ r, DotFl fl xy r := by
  by_cases h : xy = []
  · exact ⟨0, Or.inl ⟨h, rfl⟩⟩
  · obtain ⟨S, hS⟩ := sumFl_exists fl (l := xy.map fun z => z.1 * z.2) (by simpa using h)
    refine ⟨S, Or.inr ⟨_, ?_, hS⟩⟩
    rw [List.forall₂_map_left_iff]
    exact List.forall₂_same.2 fun _ _ => Or.inr rfl

theorem tileFl_exists (fl : ℝ → ℝ) (l : List (ℕ → ℝ)) : ∃ t, TileFl fl l t := by
  by_cases h : l = []
  · subst h
    exact ⟨⟨0, fun _ => 0, fun _ _ => 0⟩, rfl, fun _ _ => rfl, fun h => absurd rfl h, fun _ _ => Or.inl ⟨rfl, rfl⟩⟩
  · choose S hS using fun i => sumFl_exists fl (l := l.map fun v => v i) (by simpa using h)
    choose r hr using fun i j => dotFl_exists fl (l.map fun v => (fl (v i - fl (S i / fl l.length)), fl (v j - fl (S j / fl l.length))))
    exact ⟨⟨l.length, fun i => fl (S i / fl l.length), r⟩, rfl, fun h' => absurd h' h, fun _ i => ⟨S i, hS i, rfl⟩, hr⟩

/-- Executions of `_get_stats` exist for all images, orders of tiles and ways of rounding. -/
theorem statsFl_exists (fl : ℝ → ℝ) (im : Images ℝ) (order : List Win) : ∃ means cov, im.StatsFl fl order means cov := by
  choose t ht using fun w => tileFl_exists fl ((im.tilePix w).map im.vec)
  refine ⟨_, _, order.map t, ?_, rfl, rfl⟩
  rw [List.forall₂_map_right_iff]
  exact List.forall₂_same.2 fun w _ => ht w

/-! ## Results are not identical -/

theorem roundBits_eval {x : ℝ} {L : ℕ} {r : ℤ} (h1 : 1 / 2 ^ L ≤ |x|) (h2 : |x| < 2 / 2 ^ L) (hL : L ≤ 1022) (hr : (r : ℝ) ≤ x * 2 ^ (L + 52) + 1 / 2)
    (hr' : x * 2 ^ (L + 52) + 1 / 2 < r + 1) : roundBits 53 (-(1022 : ℕ)) x = r / 2 ^ (L + 52) := by
  have hx : 0 < |x| := lt_of_lt_of_le (by positivity) h1
  have hlog : Int.log 2 |x| = -(L : ℤ) := by
    apply le_antisymm
    · have : Int.log 2 |x| < -(L : ℤ) + 1 := by
        rw [← Int.lt_zpow_iff_log_lt (by norm_num) hx]
        push_cast
        rw [zpow_add₀ (by norm_num), zpow_neg, zpow_natCast, zpow_one, ← one_div, one_div_mul_eq_div]
        exact h2
      omega
    · rw [← Int.zpow_le_iff_le_log (by norm_num) hx]
      push_cast
      rw [zpow_neg, zpow_natCast, ← one_div]
      exact h1
  unfold roundBits
  have hm : max (Int.log 2 |x|) (-((1022 : ℕ) : ℤ)) - ((53 : ℕ) : ℤ) + 1 = -((L + 52 : ℕ) : ℤ) := by
    rw [hlog, max_eq_left (by omega)]
    push_cast
    ring
  rw [hm, zpow_neg, zpow_natCast, div_inv_eq_mul]
  have : round (x * 2 ^ (L + 52)) = r := by
    rw [round_eq, Int.floor_eq_iff]
    exact ⟨hr, hr'⟩
  rw [this]
  rfl

/-- An image of 1 x 2049 pixels, with three valid pixels: one in every tile. -/
noncomputable def sparseImages : Images ℝ where
  n := 1
  pan _ c := if c = 0 ∨ c = 1024 then some 0 else if c = 2048 then some 1 else none
  ms _ _ c := if c = 0 ∨ c = 1024 then some 0 else if c = 2048 then some 1 else none

theorem sparse_mask (r c : ℕ) : sparseImages.mask r c = decide (c = 0 ∨ c = 1024 ∨ c = 2048) := by
  unfold Images.mask sparseImages
  simp only [nanEquals_none]
  by_cases h1 : c = 0 ∨ c = 1024
  · rcases h1 with rfl | rfl <;> simp
  · by_cases h2 : c = 2048
    · subst h2; simp
    · simp [h1, h2]

theorem filterMap_first {α : Type} (f : ℕ → Option α) (a : α) (n : ℕ) (h0 : f 0 = some a) (h : ∀ c, 0 < c → c < n + 1 → f c = none) :
    (List.range (n + 1)).filterMap f = [a] := by
  rw [List.range_succ_eq_map, List.filterMap_cons_some h0, List.filterMap_map]
  have : List.filterMap (f ∘ Nat.succ) (List.range n) = [] := by
    rw [List.filterMap_eq_nil_iff]
    intro c hc
    exact h _ (Nat.succ_pos _) (by simpa using hc)
  rw [this]

theorem sparse_tile (off n : ℕ) (ho : off = 0 ∨ off = 1024 ∨ off = 2048) (hn : n < 1024) : sparseImages.tilePix ⟨off, 0, n + 1, 1⟩ = [(0, off)] := by
  unfold Images.tilePix
  simp only [sparse_mask]
  rw [show List.range 1 = [0] from rfl, List.flatMap_singleton]
  refine filterMap_first _ _ _ (by simp [ho]) fun c h1 h2 => ?_
  rw [if_neg]
  simp only [decide_eq_true_eq]
  omega

theorem one_pixel (fl : ℝ → ℝ) (h0 : fl 0 = 0) (v : ℕ → ℝ) (h1 : fl 1 = 1) (hx : ∀ i, fl (v i) = v i) :
    TileFl fl [v] ⟨1, v, fun _ _ => 0⟩ := by
  refine ⟨rfl, by simp, fun _ i => ⟨v i, .one _, ?_⟩, fun i j => Or.inr ⟨[0], ?_, .one 0⟩⟩
  · simp [h1, hx]
  · simp [h0]

theorem sparse_vec (c i : ℕ) (hc : c = 0 ∨ c = 1024 ∨ c = 2048) : sparseImages.vec (0, c) i = if c = 2048 then 1 else 0 := by
  unfold Images.vec sparseImages
  rcases hc with rfl | rfl | rfl <;> cases i <;> simp

theorem addOne_means (fl : ℝ → ℝ) (s : Agg ℝ) (v : ℕ → ℝ) (i : ℕ) : (Agg.addFl fl s ⟨1, v, fun _ _ => 0⟩).n = s.n + 1 ∧
    (Agg.addFl fl s ⟨1, v, fun _ _ => 0⟩).means i = fl (s.means i + fl (fl (fl (v i - s.means i) * fl 1) / fl ((s.n + 1 : ℕ) : ℝ))) := by
  unfold Agg.addFl
  rw [if_pos (by norm_num)]
  exact ⟨rfl, by simp only [Nat.cast_one]⟩

/-- C116: the same images, read in two runs with the same rounding, but with tiles that complete in another order, have other means: the difference is one unit in the last
place.  Rounding here is to nearest; the tie that it meets (`1 / 2 - fl (1 / 6)`) goes up, to the even neighbour, as in IEEE 754. -/
theorem C116_bits_fails : ∃ (im : Images ℝ) (info : ImInfo) (ws order : List Win) (means means' : ℕ → ℝ) (cov cov' : ℕ → ℕ → ℝ),
    blockWindows info (some (1024, 1024)) = .ok ws ∧ order.Perm ws ∧ im.StatsFl (roundBits 53 (-(1022 : ℕ))) ws means cov ∧
    im.StatsFl (roundBits 53 (-(1022 : ℕ))) order means' cov' ∧ means 0 = 6004799503160661 / 2 ^ 54 ∧ means' 0 = 6004799503160662 / 2 ^ 54 := by
  have hi : ∀ n : ℤ, |n| < 2 ^ 53 → roundBits 53 (-(1022 : ℕ)) n = n := fun n hn => roundBits_int 53 (by norm_num) 1022 n hn
  have r0 : roundBits 53 (-(1022 : ℕ)) 0 = 0 := by simpa using hi 0 (by norm_num)
  have r1 : roundBits 53 (-(1022 : ℕ)) 1 = 1 := by simpa using hi 1 (by norm_num)
  have r2 : roundBits 53 (-(1022 : ℕ)) 2 = 2 := by simpa using hi 2 (by norm_num)
  have r3 : roundBits 53 (-(1022 : ℕ)) 3 = 3 := by simpa using hi 3 (by norm_num)
  have rm1 : roundBits 53 (-(1022 : ℕ)) (-1) = -1 := by simpa using hi (-1) (by norm_num)
  have rh : roundBits 53 (-(1022 : ℕ)) (1 / 2) = 1 / 2 := by
    rw [roundBits_eval (L := 1) (r := 2 ^ 52)] <;> norm_num [abs_of_pos]
  have rmh : roundBits 53 (-(1022 : ℕ)) (-1 / 2) = -1 / 2 := by
    rw [roundBits_eval (L := 1) (r := -2 ^ 52)] <;> norm_num [abs_of_neg]
  have rt : roundBits 53 (-(1022 : ℕ)) (1 / 3) = 6004799503160661 / 2 ^ 54 := by
    rw [roundBits_eval (L := 2) (r := 6004799503160661)] <;> norm_num [abs_of_pos]
  have rt' : roundBits 53 (-(1022 : ℕ)) (6004799503160661 / 2 ^ 54) = 6004799503160661 / 2 ^ 54 := by
    rw [roundBits_eval (L := 2) (r := 6004799503160661)] <;> norm_num [abs_of_pos]
  have rs : roundBits 53 (-(1022 : ℕ)) (-1 / 2 / 3) = -6004799503160661 / 2 ^ 55 := by
    rw [roundBits_eval (L := 3) (r := -6004799503160661)] <;> norm_num [abs_of_neg]
  have rtie : roundBits 53 (-(1022 : ℕ)) (1 / 2 + -6004799503160661 / 2 ^ 55) = 6004799503160662 / 2 ^ 54 := by
    rw [roundBits_eval (L := 2) (r := 6004799503160662)] <;> norm_num [abs_of_pos]
  generalize roundBits 53 (-(1022 : ℕ)) = fl at *
  have tile : ∀ c n, (c = 0 ∨ c = 1024 ∨ c = 2048) → n < 1024 →
      TileFl fl ((sparseImages.tilePix ⟨c, 0, n + 1, 1⟩).map sparseImages.vec) ⟨1, fun _ => if c = 2048 then 1 else 0, fun _ _ => 0⟩ := by
    intro c n hc hn
    rw [sparse_tile c n hc hn, List.map_singleton]
    have e : sparseImages.vec (0, c) = fun _ => if c = 2048 then 1 else 0 := funext fun i => sparse_vec c i hc
    rw [e]
    exact one_pixel fl r0 _ r1 fun i => by split <;> assumption
  have t0 := tile 0 1023 (by simp) (by norm_num)
  have t1 := tile 1024 1023 (by simp) (by norm_num)
  have t2 := tile 2048 0 (by simp) (by norm_num)
  refine ⟨sparseImages, ⟨2049, 1, false, none, (1, 1)⟩, [⟨0, 0, 1024, 1⟩, ⟨1024, 0, 1024, 1⟩, ⟨2048, 0, 1, 1⟩], [⟨2048, 0, 1, 1⟩, ⟨0, 0, 1024, 1⟩, ⟨1024, 0, 1024, 1⟩],
    _, _, _, _, by decide +kernel, by decide +kernel, ⟨_, .cons t0 (.cons t1 (.cons t2 .nil)), rfl, rfl⟩, ⟨_, .cons t2 (.cons t0 (.cons t1 .nil)), rfl, rfl⟩, ?_, ?_⟩
  · have a1 := addOne_means fl ⟨0, fun _ => 0, fun _ _ => 0⟩ (fun _ => if (0 : ℕ) = 2048 then 1 else 0) 0
    have a2 := addOne_means fl (Agg.addFl fl ⟨0, fun _ => 0, fun _ _ => 0⟩ ⟨1, fun _ => if (0 : ℕ) = 2048 then 1 else 0, fun _ _ => 0⟩)
      (fun _ => if (1024 : ℕ) = 2048 then 1 else 0) 0
    unfold aggregateFl
    rw [List.foldl_cons, List.foldl_cons, List.foldl_cons, List.foldl_nil, (addOne_means ..).2, a2.1, a2.2, a1.1, a1.2]
    norm_num only [r0, r1, r2, r3, zero_sub, sub_zero, zero_mul, zero_div, zero_add, mul_one, if_true, if_false, Nat.cast_ofNat, Nat.cast_one, CharP.cast_eq_zero]
    simp only [rt]
    norm_num only at rt' ⊢
    exact rt'
  · have a1 := addOne_means fl ⟨0, fun _ => 0, fun _ _ => 0⟩ (fun _ => if (2048 : ℕ) = 2048 then 1 else 0) 0
    have a2 := addOne_means fl (Agg.addFl fl ⟨0, fun _ => 0, fun _ _ => 0⟩ ⟨1, fun _ => if (2048 : ℕ) = 2048 then 1 else 0, fun _ _ => 0⟩)
      (fun _ => if (0 : ℕ) = 2048 then 1 else 0) 0
    unfold aggregateFl
    rw [List.foldl_cons, List.foldl_cons, List.foldl_cons, List.foldl_nil, (addOne_means ..).2, a2.1, a2.2, a1.1, a1.2]
    norm_num only [r0, r1, r2, r3, zero_sub, sub_zero, zero_mul, zero_div, zero_add, mul_one, if_true, if_false, Nat.cast_ofNat, Nat.cast_one, CharP.cast_eq_zero]
    have e1 : (1 : ℝ) + -1 / 2 = 1 / 2 := by norm_num
    have e2 : -(1 / 2 : ℝ) = -1 / 2 := by norm_num
    rw [rm1, rm1, rmh, e1, rh, e2, rmh, rmh, rs, rtie]
    norm_num only

/-- Both runs of the counterexample are within the bounds of `C116_runs_partial`. -/
example : ∃ (means means' : ℕ → ℝ) (cov cov' : ℕ → ℕ → ℝ) (ws order : List Win), order.Perm ws ∧ sparseImages.StatsFl (roundBits 53 (-(1022 : ℕ))) ws means cov ∧
    sparseImages.StatsFl (roundBits 53 (-(1022 : ℕ))) order means' cov' ∧ |means 0 - means' 0| ≤ 80 * (2 ^ 20 + 3) / 2 ^ 53 ∧ |cov 0 1 - cov' 0 1| ≤ 4000 * (2 ^ 20 + 3) / 2 ^ 53 := by
  obtain ⟨m1, c1, h1⟩ := statsFl_exists (roundBits 53 (-(1022 : ℕ))) sparseImages [⟨0, 0, 1024, 1⟩, ⟨1024, 0, 1024, 1⟩, ⟨2048, 0, 1, 1⟩]
  obtain ⟨m2, c2, h2⟩ := statsFl_exists (roundBits 53 (-(1022 : ℕ))) sparseImages [⟨2048, 0, 1, 1⟩, ⟨0, 0, 1024, 1⟩, ⟨1024, 0, 1024, 1⟩]
  have hw : blockWindows ⟨2049, 1, false, none, (1, 1)⟩ (some (1024, 1024)) = .ok [⟨0, 0, 1024, 1⟩, ⟨1024, 0, 1024, 1⟩, ⟨2048, 0, 1, 1⟩] := by decide +kernel
  have valid : ∀ p ∈ sparseImages.validPix 1 2049, p.1 = 0 ∧ (p.2 = 0 ∨ p.2 = 1024 ∨ p.2 = 2048) := by
    intro p hp
    unfold Images.validPix at hp
    rw [Finset.mem_filter, Finset.mem_product, Finset.mem_range, Finset.mem_range] at hp
    refine ⟨by omega, ?_⟩
    by_contra hc
    push Not at hc
    exact hp.2.1 (by simp [sparseImages, hc.1, hc.2.1, hc.2.2])
  have hcard : 2 ≤ (sparseImages.validPix 1 2049).card := by
    have : ({(0, 0), (0, 1024)} : Finset (ℕ × ℕ)) ⊆ sparseImages.validPix 1 2049 := by
      intro p hp
      simp only [Finset.mem_insert, Finset.mem_singleton] at hp
      unfold Images.validPix
      rw [Finset.mem_filter, Finset.mem_product, Finset.mem_range, Finset.mem_range]
      rcases hp with rfl | rfl <;> simp [Images.Valid, sparseImages]
    exact (by decide : 2 ≤ ({(0, 0), (0, 1024)} : Finset (ℕ × ℕ)).card).trans (Finset.card_le_card this)
  have key := C116_runs_partial _ (roundBits_rounds 53 1022 _) sparseImages _ _ _ _ hw (List.Perm.refl _)
    (by decide +kernel : ([⟨2048, 0, 1, 1⟩, ⟨0, 0, 1024, 1⟩, ⟨1024, 0, 1024, 1⟩] : List Win).Perm [⟨0, 0, 1024, 1⟩, ⟨1024, 0, 1024, 1⟩, ⟨2048, 0, 1, 1⟩]) (by simp) 1 le_rfl
    (by norm_num) (by
      rintro ⟨r, c⟩ hp i _
      obtain ⟨rfl, hc⟩ := valid _ hp
      dsimp only at hc
      rw [sparse_vec c i hc]
      split <;> simp) m1 m2 c1 c2 h1 h2 0 (Nat.zero_le _)
  refine ⟨m1, m2, c1, c2, _, _, by decide +kernel, h1, h2, ?_, ?_⟩
  · have := key.1
    norm_num at this ⊢
    exact this
  · have := key.2 hcard 1 le_rfl
    norm_num at this ⊢
    exact this

end Verif.PanSharp
