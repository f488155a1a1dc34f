import Verif.PanSharp.Stats
import Mathlib.Tactic.Linarith
import Mathlib.Tactic.Positivity
import Mathlib.Tactic.IntervalCases

/-!
# C48, C49: Gram-Schmidt transform
-/

set_option autoImplicit false
set_option linter.unusedSectionVars false

namespace Verif.PanSharp
open Finset

theorem getD_append_lt {α : Type} (l m : List α) (d : α) {i : ℕ} (h : i < l.length) :
    (l ++ m).getD i d = l.getD i d := by
  simp [List.getD_eq_getElem?_getD, List.getElem?_append_left h]

theorem getD_append_last {α : Type} (l : List α) (x d : α) {i : ℕ} (h : l.length = i) :
    (l ++ [x]).getD i d = x := by
  subst h
  simp [List.getD_eq_getElem?_getD]

section Basic
variable {K : Type} [Field K] [DecidableEq K]

theorem rsum_eq (l : List K) : rsum l = l.sum := rfl

theorem rdot_eq (n : ℕ) (x y : ℕ → K) : rdot n x y = ∑ i ∈ range n, x i * y i := by
  induction n with
  | zero => rfl
  | succ n ih =>
    rw [sum_range_succ, ← ih, rdot, rdot, rsum_eq, rsum_eq, List.range_succ, List.map_append, List.sum_append]
    simp

theorem fl_zero : (0 : Fl K) = .val 0 := rfl

theorem rsum_val (l : List K) : rsum (l.map Fl.val) = .val (rsum l) := by
  induction l with
  | nil => rfl
  | cons x l ih =>
    show Fl.val x + rsum (l.map Fl.val) = _
    rw [ih]; rfl

theorem rdot_val (n : ℕ) (x y : ℕ → K) : rdot n (fun i => Fl.val (x i)) (fun i => .val (y i)) = .val (rdot n x y) := by
  unfold rdot
  rw [← rsum_val, List.map_map]
  rfl

theorem rdot_congr {R : Type} [Add R] [Sub R] [Mul R] [Zero R] {n : ℕ} {x y x' y' : ℕ → R}
    (hx : ∀ i < n, x i = x' i) (hy : ∀ i < n, y i = y' i) : rdot n x y = rdot n x' y' := by
  unfold rdot
  congr 1
  apply List.map_congr_left
  intro i hi
  rw [hx i (List.mem_range.1 hi), hy i (List.mem_range.1 hi)]

end Basic

/-! ## C48 -/

section Transform
variable {R : Type} [Add R] [Sub R] [Mul R] [Zero R]

theorem gsForward_length (n : ℕ) (ms means : ℕ → R) (φ : ℕ → ℕ → R) (w : ℕ → R) (b : ℕ) :
    (gsForward n ms means φ w b).length = b + 1 := by
  induction b with
  | zero => rfl
  | succ b ih => simp [gsForward, ih]

/-- Component `l` of the transform. -/
def gsComp (n : ℕ) (ms means : ℕ → R) (φ : ℕ → ℕ → R) (w : ℕ → R) (l : ℕ) : R :=
  (gsForward n ms means φ w l).getD l 0

theorem gsForward_getD (n : ℕ) (ms means : ℕ → R) (φ : ℕ → ℕ → R) (w : ℕ → R) {l b : ℕ} (h : l ≤ b) :
    (gsForward n ms means φ w b).getD l 0 = gsComp n ms means φ w l := by
  induction b with
  | zero =>
    have : l = 0 := by omega
    subst this; rfl
  | succ b ih =>
    rcases Nat.lt_or_ge l (b + 1) with h1 | h1
    · rw [gsForward, getD_append_lt _ _ _ (by rw [gsForward_length]; exact h1)]
      exact ih (by omega)
    · have : l = b + 1 := by omega
      subst this; rfl

theorem gsComp_zero (n : ℕ) (ms means : ℕ → R) (φ : ℕ → ℕ → R) (w : ℕ → R) :
    gsComp n ms means φ w 0 = rdot n w ms := rfl

theorem gsComp_succ (n : ℕ) (ms means : ℕ → R) (φ : ℕ → ℕ → R) (w : ℕ → R) (b : ℕ) :
    gsComp n ms means φ w (b + 1) = ms b - means b - rdot (b + 1) (φ b) (gsComp n ms means φ w) := by
  rw [gsComp, gsForward]
  rw [getD_append_last _ _ _ (gsForward_length ..)]
  congr 1
  apply rdot_congr (fun _ _ => rfl)
  intro i hi
  exact gsForward_getD _ _ _ _ _ (by omega)

end Transform

section C48
variable {K : Type} [Field K]

theorem sum_replace_zero (b : ℕ) (f g g' : ℕ → K) (h : ∀ l, g' (l + 1) = g (l + 1)) :
    ∑ l ∈ range (b + 1), f l * g' l = ∑ l ∈ range (b + 1), f l * g l + f 0 * (g' 0 - g 0) := by
  rw [sum_range_succ', sum_range_succ' (n := b) (f := fun l => f l * g l)]
  simp only [h]
  ring

/-- C48: the reverse transform of the forward transform is the MS pixel, for all coefficients, weights and
means, in all bands. -/
theorem C48_inverse (n : ℕ) (ms means : ℕ → K) (φ : ℕ → ℕ → K) (w : ℕ → K) (b : ℕ) (hb : b < n) :
    gsReverse (gsForward n ms means φ w n) means φ b = ms b := by
  classical
  unfold gsReverse
  rw [gsForward_getD _ _ _ _ _ (by omega : b + 1 ≤ n), gsComp_succ]
  rw [rdot_congr (x := φ b) (x' := φ b) (y' := gsComp n ms means φ w) (fun _ _ => rfl)
    (fun i hi => gsForward_getD _ _ _ _ _ (by omega))]
  ring

/-- C48: with the pan band replaced, each band of the pixel changes by its first coefficient times the
difference of the normalised pan and the simulated pan. -/
theorem C48_sharpened (n : ℕ) (p : Params K) (pan : K) (ms : ℕ → K) (b : ℕ) (hb : b < n) :
    sharpen n p pan ms b =
      ms b + p.φ b 0 * ((p.gain * pan + p.bias) - ∑ i ∈ range n, p.w i * ms i) := by
  classical
  have h0 := C48_inverse n ms (fun i => p.means (i + 1)) p.φ p.w b hb
  unfold sharpen
  unfold gsReverse at h0 ⊢
  simp only
  set gs := gsForward n ms (fun i => p.means (i + 1)) p.φ p.w n with hgs
  have hlen : gs.length = n + 1 := gsForward_length ..
  have hs : ∀ l, (gs.set 0 (p.gain * pan + p.bias)).getD (l + 1) 0 = gs.getD (l + 1) 0 := by
    intro l
    simp [List.getD_eq_getElem?_getD]
  have hz : (gs.set 0 (p.gain * pan + p.bias)).getD 0 0 = p.gain * pan + p.bias := by
    simp [List.getD_eq_getElem?_getD, hlen]
  have hg0 : gs.getD 0 0 = ∑ i ∈ range n, p.w i * ms i := by
    rw [hgs, gsForward_getD _ _ _ _ _ (Nat.zero_le n), gsComp_zero, rdot_eq]
  rw [rdot_eq] at h0 ⊢
  rw [hs, sum_replace_zero b (p.φ b) (fun l => gs.getD l 0) _ hs]
  simp only [hz, hg0] at h0 ⊢
  linear_combination h0

/-- C48: when the normalised pan equals the simulated pan, sharpening returns the MS pixel. -/
theorem C48_identity (n : ℕ) (p : Params K) (pan : K) (ms : ℕ → K)
    (h : p.gain * pan + p.bias = ∑ i ∈ range n, p.w i * ms i) :
    ∀ b < n, sharpen n p pan ms b = ms b := by
  intro b hb
  rw [C48_sharpened n p pan ms b hb, h, sub_self, mul_zero, add_zero]

example : sharpen 2 (⟨fun i => i, fun k l => k + 2 * l + 1, fun _ => 1 / 2, 2, 1⟩ : Params ℚ) 5
    (fun b => if b = 0 then 3 else 7) 1 = 7 + 2 * (11 - 5) := by decide +kernel

end C48

/-! ## C49 -/

section C49
variable {K : Type} [Field K] {ι : Type}

/-- Mean of a variable over a set of samples. -/
def mean1 (P : Finset ι) (f : ι → K) : K := (∑ p ∈ P, f p) / P.card

/-- Covariance of two variables. -/
def cov2 (P : Finset ι) (f g : ι → K) : K :=
  (∑ p ∈ P, (f p - mean1 P f) * (g p - mean1 P g)) / (P.card - 1)

theorem batchCov_eq (P : Finset ι) (v : ι → ℕ → K) (i j : ℕ) :
    batchCov P v i j = cov2 P (fun p => v p i) (fun p => v p j) := rfl

theorem cov2_comm (P : Finset ι) (f g : ι → K) : cov2 P f g = cov2 P g f := by
  unfold cov2
  congr 1
  exact sum_congr rfl fun _ _ => mul_comm _ _

theorem cov2_add_left (P : Finset ι) (f f' g : ι → K) :
    cov2 P (fun p => f p + f' p) g = cov2 P f g + cov2 P f' g := by
  unfold cov2
  rw [← add_div, ← sum_add_distrib]
  congr 1
  refine sum_congr rfl fun p _ => ?_
  have : mean1 P (fun p => f p + f' p) = mean1 P f + mean1 P f' := by
    unfold mean1; rw [sum_add_distrib, add_div]
  rw [this]; ring

theorem cov2_smul_left (P : Finset ι) (c : K) (f g : ι → K) :
    cov2 P (fun p => c * f p) g = c * cov2 P f g := by
  unfold cov2
  rw [← mul_div_assoc, mul_sum]
  congr 1
  refine sum_congr rfl fun p _ => ?_
  have : mean1 P (fun p => c * f p) = c * mean1 P f := by
    unfold mean1; rw [← mul_sum, mul_div_assoc]
  rw [this]; ring

theorem mean1_const [CharZero K] (P : Finset ι) (c : K) (h : P.Nonempty) : mean1 P (fun _ => c) = c := by
  have : (P.card : K) ≠ 0 := Nat.cast_ne_zero.2 (card_ne_zero.2 h)
  unfold mean1
  rw [sum_const, nsmul_eq_mul]
  field_simp

theorem cov2_const_left [CharZero K] (P : Finset ι) (c : K) (g : ι → K) : cov2 P (fun _ => c) g = 0 := by
  rcases P.eq_empty_or_nonempty with h | h
  · subst h; simp [cov2]
  · unfold cov2
    rw [mean1_const P c h]
    simp

theorem cov2_sum_left (P : Finset ι) (s : Finset ℕ) (c : ℕ → K) (f : ℕ → ι → K) (g : ι → K) :
    cov2 P (fun p => ∑ l ∈ s, c l * f l p) g = ∑ l ∈ s, c l * cov2 P (f l) g := by
  classical
  induction s using Finset.induction_on with
  | empty =>
    simp only [sum_empty]
    have := cov2_smul_left P 0 (fun _ : ι => (0 : K)) g
    simpa using this
  | insert a s ha ih =>
    simp only [sum_insert ha]
    rw [cov2_add_left P (fun p => c a * f a p), cov2_smul_left, ih]

variable [DecidableEq K]

/-- Row `l` of the matrix `a`. -/
def gsRow (n : ℕ) (cov : ℕ → ℕ → K) (w : ℕ → Fl K) (l : ℕ) : ℕ → Fl K := (gsRows n cov w l).getD l 0

theorem gsRows_length (n : ℕ) (cov : ℕ → ℕ → K) (w : ℕ → Fl K) (k : ℕ) : (gsRows n cov w k).length = k + 1 := by
  induction k with
  | zero => rfl
  | succ b ih => simp [gsRows, ih]

theorem gsRows_getD (n : ℕ) (cov : ℕ → ℕ → K) (w : ℕ → Fl K) {l k : ℕ} (h : l ≤ k) :
    (gsRows n cov w k).getD l 0 = gsRow n cov w l := by
  induction k with
  | zero =>
    have : l = 0 := by omega
    subst this; rfl
  | succ b ih =>
    rcases Nat.lt_or_ge l (b + 1) with h1 | h1
    · rw [gsRows, getD_append_lt _ _ _ (by rw [gsRows_length]; exact h1)]
      exact ih (by omega)
    · have : l = b + 1 := by omega
      subst this; rfl

theorem gsRow_zero (n : ℕ) (cov : ℕ → ℕ → K) (w : ℕ → Fl K) : gsRow n cov w 0 = w := rfl

theorem gsRow_succ (n : ℕ) (cov : ℕ → ℕ → K) (w : ℕ → Fl K) (k : ℕ) :
    gsRow n cov w (k + 1) = fun j => .val (if j = k then 1 else 0) -
      rdot (k + 1) (gsCoeffs n cov w k) (fun l => gsRow n cov w l j) := by
  rw [gsRow, gsRows]
  rw [getD_append_last _ _ _ (gsRows_length ..)]
  funext j
  congr 1
  apply rdot_congr (fun i _ => rfl)
  intro i hi
  rw [gsRows_getD _ _ _ (by omega)]

theorem gsCoeffs_eq (n : ℕ) (cov : ℕ → ℕ → K) (w : ℕ → Fl K) {k l : ℕ} (h : l ≤ k) :
    gsCoeffs n cov w k l = gsCoeff n cov (gsRow n cov w l) k := by
  rw [gsCoeffs, gsRows_getD _ _ _ h]

/-- Sum over the first `n` rows and columns. -/
def quad (n : ℕ) (C : ℕ → ℕ → K) (x y : ℕ → K) : K := ∑ i ∈ range n, ∑ j ∈ range n, x i * y j * C i j

theorem rsum_flatMap (n : ℕ) (f : ℕ → ℕ → K) :
    rsum ((List.range n).flatMap fun i => (List.range n).map fun j => f i j) =
      ∑ i ∈ range n, ∑ j ∈ range n, f i j := by
  have h1 : ∀ (l : List ℕ) (g : ℕ → List K), (l.flatMap g).sum = (l.map fun i => (g i).sum).sum := by
    intro l g
    induction l with
    | nil => rfl
    | cons a l ih => simp [List.flatMap_cons, List.sum_append, ih]
  have h2 : ∀ g : ℕ → K, ((List.range n).map g).sum = ∑ i ∈ range n, g i := by
    intro g
    have := rdot_eq n g (fun _ => 1)
    simpa [rdot, rsum_eq] using this
  rw [rsum_eq, h1, h2]
  exact sum_congr rfl fun i _ => h2 _

theorem rsum_flatMap_val (n : ℕ) (f : ℕ → ℕ → K) :
    rsum ((List.range n).flatMap fun i => (List.range n).map fun j => Fl.val (f i j)) =
      .val (∑ i ∈ range n, ∑ j ∈ range n, f i j) := by
  rw [← rsum_flatMap, ← rsum_val]
  congr 1
  rw [List.map_flatMap]
  simp [List.map_map, Function.comp_def]

theorem gsCoeff_val (n : ℕ) (C : ℕ → ℕ → K) (a : ℕ → K) (k : ℕ)
    (h : (∃ i < n, a i ≠ 0) → quad n C a a ≠ 0) :
    gsCoeff n C (fun j => .val (a j)) k =
      .val (if ∃ i < n, a i ≠ 0 then (∑ j ∈ range n, a j * C k j) / quad n C a a else 0) := by
  have hany : (List.range n).any (fun j => decide ((Fl.val (a j) : Fl K) ≠ 0)) = true ↔ ∃ i < n, a i ≠ 0 := by
    simp only [List.any_eq_true, List.mem_range, decide_eq_true_eq, fl_zero, ne_eq, Fl.val.injEq]
  unfold gsCoeff
  simp only
  by_cases hc : ∃ i < n, a i ≠ 0
  · rw [if_pos (hany.2 hc), if_pos hc, rdot_val, rdot_eq]
    simp only [Fl.val_mul]
    rw [rsum_flatMap_val n (fun i j => a i * a j * C i j), Fl.val_div, if_neg]
    · rfl
    · exact h hc
  · rw [if_neg (fun e => hc (hany.1 e)), if_neg hc, fl_zero]

/-- The covariance matrix of the first `n` variables is definite: no non-trivial combination of the variables has
zero variance. -/
def Definite (n : ℕ) (C : ℕ → ℕ → K) : Prop :=
  ∀ x : ℕ → K, (∃ i < n, x i ≠ 0) → ∑ i ∈ range n, ∑ j ∈ range n, x i * x j * C i j ≠ 0

/-- For definite covariances the rows and coefficients are numbers. -/
theorem gs_finite (n : ℕ) (C : ℕ → ℕ → K) (w : ℕ → K) (hC : Definite n C) :
    ∃ a φ : ℕ → ℕ → K, (∀ l, gsRow n C (fun j => .val (w j)) l = fun j => .val (a l j)) ∧
      (∀ k l, l ≤ k → gsCoeffs n C (fun j => .val (w j)) k l = .val (φ k l)) ∧
      (∀ j, a 0 j = w j) ∧
      (∀ k j, a (k + 1) j = (if j = k then 1 else 0) - ∑ l ∈ range (k + 1), φ k l * a l j) ∧
      ∀ k l, l ≤ k → φ k l =
        if ∃ i < n, a l i ≠ 0 then (∑ j ∈ range n, a l j * C k j) / quad n C (a l) (a l) else 0 := by
  have h1 : ∀ l, ∃ al : ℕ → K, gsRow n C (fun j => .val (w j)) l = fun j => .val (al j) := by
    intro l
    induction l using Nat.strong_induction_on with
    | _ l ih =>
      cases l with
      | zero => exact ⟨w, rfl⟩
      | succ k =>
        have h2 : ∀ l : ℕ, ∃ p : K × (ℕ → K), l ≤ k → gsCoeffs n C (fun j => .val (w j)) k l = .val p.1 ∧
            gsRow n C (fun j => .val (w j)) l = fun j => .val (p.2 j) := by
          intro l
          by_cases hl : l ≤ k
          · obtain ⟨al, hal⟩ := ih l (by omega)
            have hc := gsCoeffs_eq n C (fun j => .val (w j)) hl
            rw [hal, gsCoeff_val n C al k (hC al)] at hc
            exact ⟨(_, al), fun _ => ⟨hc, hal⟩⟩
          · exact ⟨(0, fun _ => 0), fun h => absurd h hl⟩
        choose f hf using h2
        refine ⟨fun j => (if j = k then 1 else 0) - rdot (k + 1) (fun l => (f l).1) (fun l => (f l).2 j), ?_⟩
        rw [gsRow_succ]
        funext j
        rw [rdot_congr (x' := fun l => .val (f l).1) (y' := fun l => .val ((f l).2 j))
          (fun i hi => (hf i (by omega)).1) (fun i hi => congrFun (hf i (by omega)).2 j), rdot_val]
        rfl
  choose a ha using h1
  refine ⟨a, fun k l => if ∃ i < n, a l i ≠ 0 then (∑ j ∈ range n, a l j * C k j) / quad n C (a l) (a l) else 0,
    ha, ?_, ?_, ?_, fun _ _ _ => rfl⟩
  · intro k l hl
    rw [gsCoeffs_eq _ _ _ hl, ha l, gsCoeff_val n C (a l) k (hC (a l))]
  · intro j
    have := congrFun (ha 0) j
    rw [gsRow_zero] at this
    exact (Fl.val.inj this).symm
  · intro k j
    have := congrFun (ha (k + 1)) j
    rw [gsRow_succ] at this
    have hr := rdot_congr (n := k + 1) (x := gsCoeffs n C (fun j => .val (w j)) k)
      (y := fun l => gsRow n C (fun j => .val (w j)) l j)
      (x' := fun l => .val (if ∃ i < n, a l i ≠ 0 then (∑ j ∈ range n, a l j * C k j) / quad n C (a l) (a l) else 0))
      (y' := fun l => .val (a l j))
      (fun l hl => by rw [gsCoeffs_eq _ _ _ (by omega : l ≤ k), ha l, gsCoeff_val n C (a l) k (hC (a l))])
      (fun l _ => congrFun (ha l) j)
    simp only [hr] at this
    rw [rdot_val, rdot_eq] at this
    exact (Fl.val.inj this).symm

/-- C49: with coefficients from the covariance of the MS bands over some set of pixels, the components of the
forward transform of these pixels are pairwise uncorrelated (the simulated pan included).  For all weights,
means and data for which no combination of the bands is constant. -/
theorem C49_uncorrelated [CharZero K] (P : Finset ι) (ms : ι → ℕ → K) (n : ℕ) (w means : ℕ → K)
    (hC : Definite n (batchCov P ms)) :
    ∃ φ : ℕ → ℕ → K, (∀ k l, l ≤ k → gsCoeffs n (batchCov P ms) (fun j => .val (w j)) k l = .val (φ k l)) ∧
      ∀ i ≤ n, ∀ j ≤ n, i ≠ j →
        batchCov P (fun p l => (gsForward n (ms p) means φ w n).getD l 0) i j = 0 := by
  obtain ⟨a, φ, ha, hφ, ha0, has, hφe⟩ := gs_finite n (batchCov P ms) w hC
  refine ⟨φ, hφ, ?_⟩
  set G : ℕ → ι → K := fun l p => gsComp n (ms p) means φ w l with hG
  -- covariance with a component is that with its row
  have hcov : ∀ l ≤ n, ∀ g : ι → K, cov2 P (G l) g = ∑ j ∈ range n, a l j * cov2 P (fun p => ms p j) g := by
    intro l
    induction l using Nat.strong_induction_on with
    | _ l ih =>
      intro hl g
      cases l with
      | zero =>
        simp only [hG, gsComp_zero, rdot_eq]
        rw [cov2_sum_left P (range n) w (fun j p => ms p j) g]
        exact sum_congr rfl fun j _ => by rw [ha0]
      | succ k =>
        have e1 : G (k + 1) = fun p => (ms p k + (-means k)) + (-1) * ∑ l ∈ range (k + 1), φ k l * G l p := by
          funext p
          simp only [hG, gsComp_succ, rdot_eq]
          ring
        rw [e1, cov2_add_left P (fun p => ms p k + (-means k)), cov2_add_left P (fun p => ms p k),
          cov2_const_left, cov2_smul_left, cov2_sum_left P (range (k + 1)) (φ k) G g]
        have e2 : ∀ l ∈ range (k + 1), φ k l * cov2 P (G l) g =
            ∑ j ∈ range n, φ k l * a l j * cov2 P (fun p => ms p j) g := by
          intro l hl'
          rw [ih l (by simpa using hl') (by have := mem_range.1 hl'; omega), mul_sum]
          exact sum_congr rfl fun _ _ => by ring
        rw [sum_congr rfl e2, sum_comm]
        have e3 : ∀ j ∈ range n, a (k + 1) j * cov2 P (fun p => ms p j) g =
            (if j = k then cov2 P (fun p => ms p j) g else 0) -
              ∑ l ∈ range (k + 1), φ k l * a l j * cov2 P (fun p => ms p j) g := by
          intro j _
          rw [has, sub_mul, sum_mul]
          split <;> ring
        rw [sum_congr rfl e3, sum_sub_distrib, sum_ite_eq' (range n) k, if_pos (mem_range.2 (by omega))]
        ring
  have hquad : ∀ l ≤ n, cov2 P (G l) (G l) = quad n (batchCov P ms) (a l) (a l) := by
    intro l hl
    rw [hcov l hl, quad]
    refine sum_congr rfl fun i _ => ?_
    rw [cov2_comm, hcov l hl, mul_sum]
    refine sum_congr rfl fun j _ => ?_
    rw [batchCov_eq, cov2_comm]
    ring
  -- one direction
  have key : ∀ k ≤ n, ∀ j < k, cov2 P (G k) (G j) = 0 := by
    intro k
    induction k using Nat.strong_induction_on with
    | _ k ih =>
      intro hk j hj
      cases k with
      | zero => omega
      | succ k =>
        have e1 : G (k + 1) = fun p => (ms p k + (-means k)) + (-1) * ∑ l ∈ range (k + 1), φ k l * G l p := by
          funext p
          simp only [hG, gsComp_succ, rdot_eq]
          ring
        rw [e1, cov2_add_left P (fun p => ms p k + (-means k)), cov2_add_left P (fun p => ms p k),
          cov2_const_left, cov2_smul_left, cov2_sum_left P (range (k + 1)) (φ k) G (G j)]
        rw [sum_eq_single j]
        · have hnum : cov2 P (fun p => ms p k) (G j) = ∑ i ∈ range n, a j i * batchCov P ms k i := by
            rw [cov2_comm, hcov j (by omega)]
            exact sum_congr rfl fun i _ => by rw [batchCov_eq, cov2_comm]
          by_cases hz : ∃ i < n, a j i ≠ 0
          · have hq := hC (a j) hz
            rw [hquad j (by omega), hφe k j (by omega), if_pos hz, hnum]
            have hq' : quad n (batchCov P ms) (a j) (a j) ≠ 0 := hq
            field_simp
            ring
          · push Not at hz
            have e0 : ∀ g, cov2 P (G j) g = 0 := by
              intro g
              rw [hcov j (by omega)]
              exact sum_eq_zero fun i hi => by rw [hz i (mem_range.1 hi), zero_mul]
            rw [e0, cov2_comm, e0]
            ring
        · intro l hl hne
          have hl' := mem_range.1 hl
          rcases Nat.lt_or_gt_of_ne hne with h | h
          · rw [cov2_comm, ih j (by omega) (by omega) l h, mul_zero]
          · rw [ih l (by omega) (by omega) j h, mul_zero]
        · intro hn
          exact absurd (mem_range.2 hj) hn
  intro i hi j hj hne
  have e : ∀ l ≤ n, (fun p => (gsForward n (ms p) means φ w n).getD l 0) = G l := by
    intro l hl
    funext p
    exact gsForward_getD _ _ _ _ _ hl
  rw [batchCov_eq, e i hi, e j hj]
  rcases Nat.lt_or_gt_of_ne hne with h | h
  · rw [cov2_comm]; exact key j hj i h
  · exact key i hi j h

/-- C49 fails for dependent bands: with the same band twice (allowed by `_validate_pan_ms_params`), for all
data with non-zero variance and all weights that use the second copy, the second coefficient of the second
band is NaN, and so is each pixel of the second band of the result. -/
theorem C49_duplicate_fails (s : K) (hs : s ≠ 0) (w : ℕ → K) (hw : w 0 + w 1 = 1) (h1 : w 1 ≠ 0)
    (means : ℕ → Fl K) (gain bias pan : Fl K) (ms : ℕ → Fl K) :
    let φ := gsCoeffs 2 (fun _ _ => s) (fun j => .val (w j))
    φ 1 1 = .nan ∧ sharpen 2 ⟨means, φ, fun j => .val (w j), gain, bias⟩ pan ms 1 = .nan := by
  intro φ
  have c0 : gsCoeffs 2 (fun _ _ => s) (fun j => .val (w j)) 0 0 = .val 1 := by
    rw [gsCoeffs_eq _ _ _ le_rfl, gsRow_zero, gsCoeff_val 2 _ w 0]
    · have hc : ∃ i < 2, w i ≠ 0 := ⟨1, by omega, h1⟩
      rw [if_pos hc]
      congr 1
      have hn : ∑ j ∈ range 2, w j * s = s := by
        simp only [sum_range_succ, range_zero, sum_empty, zero_add]
        linear_combination s * hw
      have hd : quad 2 (fun _ _ => s) w w = s := by
        simp only [quad, sum_range_succ, range_zero, sum_empty, zero_add]
        linear_combination s * (w 0 + w 1 + 1) * hw
      rw [hn, hd, div_self hs]
    · intro _
      have hd : quad 2 (fun _ _ => s) w w = s := by
        simp only [quad, sum_range_succ, range_zero, sum_empty, zero_add]
        linear_combination s * (w 0 + w 1 + 1) * hw
      rw [hd]; exact hs
  have r1 : gsRow 2 (fun _ _ => s) (fun j => .val (w j)) 1 =
      fun j => .val ((if j = 0 then 1 else 0) - w j) := by
    rw [gsRow_succ]
    funext j
    have : rdot (0 + 1) (gsCoeffs 2 (fun _ _ => s) (fun j => .val (w j)) 0)
        (fun l => gsRow 2 (fun _ _ => s) (fun j => .val (w j)) l j) = .val (w j) := by
      simp only [rdot, zero_add, List.range_one, List.map_cons, List.map_nil, rsum, List.foldr, c0, gsRow_zero,
        fl_zero, Fl.val_mul, Fl.val_add, one_mul, add_zero]
    rw [this]; rfl
  have c1 : φ 1 1 = .nan := by
    show gsCoeffs 2 (fun _ _ => s) (fun j => .val (w j)) 1 1 = .nan
    rw [gsCoeffs_eq _ _ _ le_rfl, r1]
    unfold gsCoeff
    simp only [Fl.val_mul]
    rw [if_pos, rsum_flatMap_val 2 (fun i j => ((if i = 0 then 1 else 0) - w i) * ((if j = 0 then 1 else 0) - w j) * s),
      rdot_val, Fl.val_div, if_pos]
    · simp only [sum_range_succ, range_zero, sum_empty, zero_add, if_true, one_ne_zero, if_false]
      linear_combination s * (w 0 + w 1 - 1) * hw
    · simp only [List.any_eq_true, List.mem_range, decide_eq_true_eq, fl_zero, ne_eq, Fl.val.injEq]
      exact ⟨1, by omega, by simpa using h1⟩
  refine ⟨c1, ?_⟩
  unfold sharpen gsReverse
  have hn : ∀ y : ℕ → Fl K, rdot 2 (φ 1) y = .nan := by
    intro y
    simp [rdot, rsum, List.range_succ, c1]
  simp only [Nat.reduceAdd, hn, Fl.add_nan]

/-- Data that meet the hypotheses: three pixels of two bands. -/
example : Definite 2 (batchCov (Finset.range 3) (fun p b => (if p = b then 1 else 0 : ℚ))) := by
  intro x hx
  have e : ∀ i j : ℕ, i < 2 → j < 2 → batchCov (Finset.range 3) (fun p b => (if p = b then 1 else 0 : ℚ)) i j =
      if i = j then 1 / 3 else -1 / 6 := by
    intro i j hi hj
    interval_cases i <;> interval_cases j <;> decide +kernel
  simp only [sum_range_succ, range_zero, sum_empty, zero_add, e 0 0 (by omega) (by omega),
    e 0 1 (by omega) (by omega), e 1 0 (by omega) (by omega), e 1 1 (by omega) (by omega)]
  norm_num
  intro h
  have h1 : 3 * (x 0 - x 1) ^ 2 + (x 0 + x 1) ^ 2 = 0 := by linear_combination 12 * h
  have h2 : x 0 - x 1 = 0 := by nlinarith [sq_nonneg (x 0 - x 1), sq_nonneg (x 0 + x 1)]
  have h3 : x 0 + x 1 = 0 := by nlinarith [sq_nonneg (x 0 - x 1), sq_nonneg (x 0 + x 1)]
  obtain ⟨i, hi, hne⟩ := hx
  interval_cases i
  · exact hne (by linarith)
  · exact hne (by linarith)

end C49

end Verif.PanSharp
