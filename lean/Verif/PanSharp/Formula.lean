import Verif.PanSharp.Props

/-!
# C50: what pan-sharpening does to a pixel
-/

set_option autoImplicit false
set_option linter.unusedSectionVars false

namespace Verif.PanSharp
open Finset

variable {ι : Type}

/-! ## Specification -/

/-- `w` are non-negative weights with sum one: those that the user gives, divided by their sum, or without weights from the user those `u` for which the
difference of pan and the combination of the MS bands is not correlated with any MS band (least squares), divided by their sum, if none is negative and
one is positive. -/
structure WeightsOf (P : Finset ι) (v : ι → ℕ → ℝ) (n : ℕ) (weights : Option (List ℝ)) (w : ℕ → ℝ) : Prop where
  nonneg : ∀ b < n, 0 ≤ w b
  sum : ∑ b ∈ range n, w b = 1
  user : ∀ l, weights = some l → ∀ b < n, w b = l.getD b 0 / l.sum
  fit : weights = none → ∀ u : ℕ → ℝ,
    (∀ j < n, cov2 P (fun q => v q 0 - ∑ k ∈ range n, u k * v q (k + 1)) (fun q => v q (j + 1)) = 0) →
    (∀ b < n, 0 ≤ u b) → (∃ b < n, 0 < u b) → ∀ b < n, w b = u b / ∑ k ∈ range n, u k

/-- Gain and bias of pan give it the mean and variance of the simulated pan, over the pixels `P`. -/
structure Matches (P : Finset ι) (v : ι → ℕ → ℝ) (n : ℕ) (w : ℕ → ℝ) (g β : ℝ) : Prop where
  gain : 0 ≤ g
  mean : mean1 P (fun p => g * v p 0 + β) = mean1 P (fun p => simPan n w (v p))
  var : cov2 P (fun p => g * v p 0 + β) (fun p => g * v p 0 + β) = cov2 P (fun p => simPan n w (v p)) (fun p => simPan n w (v p))

/-- The sharpened value of band `b`: the MS value plus the difference of the normalised pan and the simulated pan of the pixel, times the slope of the
regression of the band on the simulated pan over the pixels `P`. -/
noncomputable def sharpened (P : Finset ι) (v : ι → ℕ → ℝ) (n : ℕ) (w : ℕ → ℝ) (g β pan : ℝ) (ms : ℕ → ℝ) (b : ℕ) : ℝ :=
  ms b + cov2 P (fun p => v p (b + 1)) (fun p => simPan n w (v p)) / cov2 P (fun p => simPan n w (v p)) (fun p => simPan n w (v p)) *
    ((g * pan + β) - ∑ i ∈ range n, w i * ms i)

/-! ## Proof -/

theorem rsum_nan (l : List (Fl ℝ)) (h : Fl.nan ∈ l) : rsum l = .nan := by
  induction l with
  | nil => cases h
  | cons a l ih =>
    show a + rsum l = .nan
    rcases List.mem_cons.1 h with h | h
    · rw [← h, Fl.nan_add]
    · rw [ih h, Fl.add_nan]

theorem lsWeights_eq (P : Finset ι) (v : ι → ℕ → ℝ) (n : ℕ) (u : ℕ → ℝ)
    (hpc : ∀ j < n, batchCov P v 0 (j + 1) = ∑ i ∈ range n, u i * batchCov P v (i + 1) (j + 1))
    (hC : Definite n (batchCov P (fun q b => v q (b + 1)))) (ls : List (List ℝ) → List ℝ → List ℝ) (hls : IsLstsq ls) :
    lsWeights ls (batchCov P v) (List.range' 1 n) = (List.range n).map u := by
  set x := lsWeights ls (batchCov P v) (List.range' 1 n) with hx
  have hlen : x.length = n := by rw [hx]; simp [lsWeights, hls.length]
  have hA : ∀ i < n, ∀ j < n, (((List.range' 1 n).map fun i => (List.range' 1 n).map fun j => batchCov P v i j).getD i
      []).getD j 0 = batchCov P v (i + 1) (j + 1) := by
    intro i hi j hj
    simp [List.getD_eq_getElem?_getD, hi, hj, Nat.add_comm]
  have hb : ∀ i < n, ((List.range' 1 n).map fun j => batchCov P v 0 j).getD i 0 = batchCov P v 0 (i + 1) := by
    intro i hi
    simp [List.getD_eq_getElem?_getD, hi, Nat.add_comm]
  have hug : ∀ i < n, ((List.range n).map u).getD i 0 = u i := by
    intro i hi
    simp [List.getD_eq_getElem?_getD, hi]
  have hsol := hls.solves ((List.range' 1 n).map fun i => (List.range' 1 n).map fun j => batchCov P v i j)
    ((List.range' 1 n).map fun j => batchCov P v 0 j) ((List.range n).map u) (by simp) (by
      intro i hi
      simp only [List.length_map, List.length_range'] at hi ⊢
      rw [hb i hi, hpc i hi]
      refine sum_congr rfl fun j hj => ?_
      rw [hA i hi j (mem_range.1 hj), hug j (mem_range.1 hj), batchCov_eq, cov2_comm]
      rw [mul_comm]; rfl)
  have hsol' : ∀ i < n, ∑ j ∈ range n, batchCov P v (i + 1) (j + 1) * (x.getD j 0 - u j) = 0 := by
    intro i hi
    have h1 := hsol i (by simpa using hi)
    simp only [List.length_map, List.length_range'] at h1
    rw [hb i hi, hpc i hi] at h1
    have e1 : ∑ j ∈ range n, batchCov P v (i + 1) (j + 1) * x.getD j 0 =
        ∑ j ∈ range n, u j * batchCov P v (j + 1) (i + 1) := by
      rw [← h1]
      exact sum_congr rfl fun j hj => by rw [hA i hi j (mem_range.1 hj)]; rfl
    simp only [mul_sub, sum_sub_distrib]
    rw [e1, sub_eq_zero]
    refine sum_congr rfl fun j _ => ?_
    rw [batchCov_eq, cov2_comm, mul_comm]; rfl
  have hall : ∀ j < n, x.getD j 0 = u j := by
    by_contra hne
    push Not at hne
    obtain ⟨j, hj, hne⟩ := hne
    refine hC (fun j => x.getD j 0 - u j) ⟨j, hj, sub_ne_zero.2 hne⟩ ?_
    rw [sum_sum_mul]
    exact sum_eq_zero fun i hi => by
      have := hsol' i (mem_range.1 hi)
      have e : (∑ j ∈ range n, batchCov P (fun q b => v q (b + 1)) i j * (x.getD j 0 - u j)) = 0 := this
      rw [e, mul_zero]
  apply List.ext_getElem
  · simp [hlen]
  · intro i h1 h2
    have := hall i (by omega)
    rw [List.getD_eq_getElem?_getD, List.getElem?_eq_getElem h1] at this
    simpa using this

theorem list_sum_range (n : ℕ) (u : ℕ → ℝ) : ((List.range n).map u).sum = ∑ b ∈ range n, u b := by
  have := rdot_eq n u (fun _ => 1)
  simpa [rdot, rsum_eq] using this

theorem sum_getD (l : List ℝ) : ∑ b ∈ range l.length, l.getD b 0 = l.sum := by
  rw [← list_sum_range]
  congr 1
  apply List.ext_getElem
  · simp
  · intro i h1 h2
    simp [List.getD_eq_getElem?_getD, h2]

/-- The weights in use are numbers that meet `WeightsOf`, or all NaN. -/
theorem getWeights_spec (P : Finset ι) (v : ι → ℕ → ℝ) (n : ℕ) (ls : List (List ℝ) → List ℝ → List ℝ) (hls : IsLstsq ls)
    (weights : Option (List ℝ)) (hu : ∀ l, weights = some l → l.length = n ∧ ∀ x ∈ l, 0 ≤ x)
    (hC : Definite n (batchCov P (fun q b => v q (b + 1)))) (ws : List (Fl ℝ))
    (h : getWeights ls n (batchCov P v) weights = .ok ws) :
    (∃ w : ℕ → ℝ, (∀ b < n, ws.getD b 0 = .val (w b)) ∧ WeightsOf P v n weights w) ∨ ∀ b < n, ws.getD b 0 = .nan := by
  have hnan : ∀ l : List (Fl ℝ), l.length = n → (∀ x ∈ l, x = .nan) → ∀ b < n, l.getD b 0 = .nan := by
    intro l hl hx b hb
    rw [List.getD_eq_getElem?_getD, List.getElem?_eq_getElem (by omega)]
    exact hx _ (List.getElem_mem _)
  have hval : ∀ l : List ℝ, l.length = n → ∀ b < n, (l.map Fl.val).getD b 0 = .val (l.getD b 0) := by
    intro l hl b hb
    simp [List.getD_eq_getElem?_getD, hl, hb]
  cases weights with
  | some l =>
    obtain ⟨hlen, h0⟩ := hu l rfl
    have hr : rawWeights ls n (batchCov P v) (some l) = .ok l := by
      unfold rawWeights
      simp only
      rw [if_neg]
      simp only [List.any_eq_true, decide_eq_true_eq, not_exists, not_and, not_lt]
      exact h0
    rw [getWeights, hr] at h
    simp only [Except.ok.injEq] at h
    subst h
    have hn := normalise l h0
    split at hn
    · exact .inr (hnan _ (by simp [hlen]) hn)
    · rename_i hs
      refine .inl ⟨fun b => l.getD b 0 / l.sum, ?_, ⟨?_, ?_, ?_, fun h => by cases h⟩⟩
      · intro b hb
        rw [hn.1, hval _ (by simp [hlen]) b hb]
        simp [List.getD_eq_getElem?_getD, hlen, hb]
      · intro b hb
        refine div_nonneg ?_ (List.sum_nonneg h0)
        rw [List.getD_eq_getElem?_getD, List.getElem?_eq_getElem (by omega)]
        exact h0 _ (List.getElem_mem _)
      · rw [← sum_div, ← hlen, sum_getD, div_self hs]
      · intro l' hl' b hb
        cases hl'
        rfl
  | none =>
    rcases C51_estimated_partial ls hls.length n _ ws h with ⟨l, rfl, hlen, h0, h1⟩ | ⟨hlen, hx⟩
    · refine .inl ⟨fun b => l.getD b 0, hval l hlen, ⟨?_, ?_, fun l h => (by cases h), ?_⟩⟩
      · intro b hb
        rw [List.getD_eq_getElem?_getD, List.getElem?_eq_getElem (by omega)]
        exact h0 _ (List.getElem_mem _)
      · rw [← hlen, sum_getD, h1]
      · intro _ u hres hu0 hpos b hb
        have hpc : ∀ j < n, batchCov P v 0 (j + 1) = ∑ i ∈ range n, u i * batchCov P v (i + 1) (j + 1) := by
          intro j hj
          have h2 := hres j hj
          have e : (fun q => v q 0 - ∑ k ∈ range n, u k * v q (k + 1)) =
              fun q => v q 0 + (-1) * (∑ k ∈ range n, u k * v q (k + 1)) := by funext q; ring
          rw [e, cov2_add_left P (fun q => v q 0) (fun q => (-1) * ∑ k ∈ range n, u k * v q (k + 1)),
            cov2_smul_left P (-1) (fun q => ∑ k ∈ range n, u k * v q (k + 1)),
            cov2_sum_left P (range n) u (fun b p => v p (b + 1))] at h2
          rw [batchCov_eq]
          have e2 : ∑ i ∈ range n, u i * batchCov P v (i + 1) (j + 1) =
              ∑ i ∈ range n, u i * cov2 P (fun p => v p (i + 1)) (fun p => v p (j + 1)) := rfl
          rw [e2]
          linarith
        have hw := lsWeights_eq P v n u hpc hC ls hls
        have hg := C51_estimated_positive ls n (batchCov P v)
          (by rw [hw]; intro x hx; simp only [List.mem_map, List.mem_range] at hx; obtain ⟨b, hb, rfl⟩ := hx; exact hu0 b hb)
          (by rw [hw]; obtain ⟨b, hb, hb0⟩ := hpos; exact ⟨u b, List.mem_map.2 ⟨b, List.mem_range.2 hb, rfl⟩, hb0⟩)
        rw [h, hw, list_sum_range] at hg
        have h3 := congrArg (fun l : List (Fl ℝ) => l.getD b 0) (Except.ok.inj hg)
        rw [hval l hlen b hb] at h3
        simpa [List.getD_eq_getElem?_getD, hb] using h3
    · exact .inr (hnan _ hlen hx)

/-- With weights of NaN the result is NaN. -/
theorem sharpen_nan (n : ℕ) (means : ℕ → ℝ) (cov : ℕ → ℕ → ℝ) (wl : List (Fl ℝ)) (hw : ∀ b < n, wl.getD b 0 = .nan) (pan : Fl ℝ)
    (ms : ℕ → Fl ℝ) (b : ℕ) (hb : b < n) : sharpen n (mkParams n means cov wl) pan ms b = .nan := by
  have hg : (mkParams n means cov wl).gain = .nan := by
    unfold mkParams panNorm
    simp only
    rw [rsum_nan]
    · simp
    · simp only [List.mem_flatMap, List.mem_map, List.mem_range]
      exact ⟨b, hb, b, hb, by rw [hw b hb]; simp⟩
  unfold sharpen gsReverse
  simp only
  rw [show rdot (b + 1) ((mkParams n means cov wl).φ b) _ = (Fl.nan : Fl ℝ) from ?_, Fl.add_nan]
  unfold rdot
  refine rsum_nan _ ?_
  simp only [List.mem_map, List.mem_range]
  refine ⟨0, by omega, ?_⟩
  have hl := gsForward_length n ms (fun i => (mkParams n means cov wl).means (i + 1)) (mkParams n means cov wl).φ
    (mkParams n means cov wl).w n
  rw [hg, Fl.nan_mul, Fl.nan_add, List.getD_eq_getElem?_getD, List.getElem?_set_self (by omega)]
  simp

/-- C50: when there are two or more pixels, pan is not constant over them and no combination of the MS bands is, the weights are as `WeightsOf` says, gain
and bias match pan to the simulated pan, and each band of each pixel becomes `sharpened`; or all results are NaN. -/
theorem C50_formula (P : Finset ι) (hP : 2 ≤ P.card) (v : ι → ℕ → ℝ) (n : ℕ) (ls : List (List ℝ) → List ℝ → List ℝ) (hls : IsLstsq ls)
    (weights : Option (List ℝ)) (hu : ∀ l, weights = some l → l.length = n ∧ ∀ x ∈ l, 0 ≤ x)
    (hvar : batchCov P v 0 0 ≠ 0) (hC : Definite n (batchCov P (fun q b => v q (b + 1)))) (p : Params (Fl ℝ))
    (hp : getParams ls n (batchMean P v) (batchCov P v) weights = .ok p) :
    (∃ (w : ℕ → ℝ) (g β : ℝ), WeightsOf P v n weights w ∧ Matches P v n w g β ∧
      ∀ (pan : ℝ) (ms : ℕ → ℝ) (b : ℕ), b < n →
        sharpen n p (.val pan) (fun i => .val (ms i)) b = .val (sharpened P v n w g β pan ms b)) ∨
    ∀ (pan : ℝ) (ms : ℕ → ℝ) (b : ℕ), b < n → sharpen n p (.val pan) (fun i => .val (ms i)) b = .nan := by
  unfold getParams at hp
  cases hg : getWeights ls n (batchCov P v) weights with
  | error e => rw [hg] at hp; cases hp
  | ok wl =>
    rw [hg] at hp
    obtain rfl := Except.ok.inj hp
    rcases getWeights_spec P v n ls hls weights hu hC wl hg with ⟨w, hw, hspec⟩ | hw
    · left
      obtain ⟨g, β, hgb, h1, h2, h3⟩ := C50_pan_stats P hP v n w (fun b => wl.getD b 0) hw hvar
      obtain ⟨a, φ, -, hφ, ha, -, hφ0⟩ := gs_finite n (batchCov P (fun q b => v q (b + 1))) w hC
      have hφ' : ∀ k l, l ≤ k → gsCoeffs n (fun i j => batchCov P v (i + 1) (j + 1)) (fun b => wl.getD b 0) k l =
          .val (φ k l) := by
        intro k l hl
        rw [← hφ k l hl]
        exact gsCoeffs_congr n _ hw hl
      refine ⟨w, g, β, hspec, ⟨h1, h2, h3⟩, ?_⟩
      intro pan ms b hb
      let q : Params ℝ := ⟨batchMean P v, φ, w, g, β⟩
      have hs := sharpen_val n (mkParams n (batchMean P v) (batchCov P v) wl) q (fun _ => rfl) hφ' hw (congrArg Prod.fst hgb)
        (congrArg Prod.snd hgb) pan ms b hb
      refine hs.trans ?_
      rw [C48_sharpened n q _ _ b hb]
      have hne : ∃ i < n, a 0 i ≠ 0 := by
        by_contra hcon
        push Not at hcon
        have : ∑ b ∈ range n, w b = 0 := sum_eq_zero fun i hi => by rw [← ha]; exact hcon i (mem_range.1 hi)
        rw [hspec.sum] at this
        exact one_ne_zero this
      have e1 : φ b 0 = cov2 P (fun p => v p (b + 1)) (fun p => simPan n w (v p)) /
          cov2 P (fun p => simPan n w (v p)) (fun p => simPan n w (v p)) := by
        rw [hφ0 b 0 (Nat.zero_le _), if_pos hne, cov2_sim]
        congr 1
        · rw [cov2_comm]
          unfold simPan
          rw [cov2_sum_left P (range n) w (fun b p => v p (b + 1))]
          refine sum_congr rfl fun j _ => ?_
          rw [ha, batchCov_eq, cov2_comm]
        · unfold quad
          refine sum_congr rfl fun i _ => sum_congr rfl fun j _ => ?_
          rw [ha, ha]
          rfl
      unfold sharpened
      rw [← e1]
    · right
      intro pan ms b hb
      exact sharpen_nan n _ _ wl hw _ _ b hb

/-- Data that meets the hypotheses: three pixels, two bands, weights (1, 3) of the user. -/
example : ∃ (p : Params (Fl ℝ)) (ls : List (List ℝ) → List ℝ → List ℝ), IsLstsq ls ∧
    getParams ls 2 (batchMean (Finset.range 3) demoData) (batchCov (Finset.range 3) demoData) (some [1, 3]) = .ok p ∧
    ∃ (w : ℕ → ℝ) (g β : ℝ), w 1 = 3 / 4 ∧ Matches (Finset.range 3) demoData 2 w g β ∧
      sharpen 2 p (.val 9) (fun i => .val (if i = 0 then 1 else 0)) 0 =
        .val (sharpened (Finset.range 3) demoData 2 w g β 9 (fun i => if i = 0 then 1 else 0) 0) := by
  have hex : ∃ ls : List (List ℝ) → List ℝ → List ℝ, IsLstsq ls := by
    classical
    refine ⟨fun A b => if h : ∃ x : List ℝ, x.length = b.length ∧ Solves A b x then h.choose
      else List.replicate b.length 0, ⟨fun A b => ?_, fun A b x h1 h2 => ?_⟩⟩
    · split
      · rename_i h; exact h.choose_spec.1
      · simp
    · have h : ∃ x : List ℝ, x.length = b.length ∧ Solves A b x := ⟨x, h1, h2⟩
      rw [dif_pos h]
      exact h.choose_spec.2
  obtain ⟨ls, hls⟩ := hex
  have hv : batchCov (Finset.range 3) demoData 0 0 ≠ 0 := by norm_num [batchCov, batchDev, batchMean, demoData, sum_range_succ]
  have hg : getWeights ls 2 (batchCov (Finset.range 3) demoData) (some [1, 3]) = .ok [.val (1 / 4), .val (3 / 4)] := by
    norm_num [getWeights, rawWeights, Fl.val_div]
  have hp : getParams ls 2 (batchMean (Finset.range 3) demoData) (batchCov (Finset.range 3) demoData) (some [1, 3]) =
      .ok (mkParams 2 (batchMean (Finset.range 3) demoData) (batchCov (Finset.range 3) demoData) [.val (1 / 4), .val (3 / 4)]) := by
    rw [getParams, hg]
  refine ⟨_, ls, hls, hp, ?_⟩
  rcases C50_formula (Finset.range 3) (by simp) demoData 2 ls hls (some [1, 3]) (by intro l hl; cases hl; norm_num) hv demo_definite _ hp with
    ⟨w, g, β, h1, h2, h3⟩ | h
  · refine ⟨w, g, β, ?_, h2, h3 9 _ 0 (by omega)⟩
    have := h1.user _ rfl 1 (by omega)
    norm_num at this
    exact this
  · exfalso
    obtain ⟨out, ho, -⟩ := C50_band_means (Finset.range 3) (by simp) demoData 2 (fun b => if b = 0 then 1 / 4 else 3 / 4) ls (some [1, 3]) _ hp
      (by intro b hb; interval_cases b <;> simp [mkParams]) hv demo_definite 0 (by omega)
    have h0 := ho 0
    rw [h _ (fun i => demoData 0 (i + 1)) 0 (by omega)] at h0
    cases h0

end Verif.PanSharp
