import Verif.PanSharp.Process
import Mathlib.LinearAlgebra.Matrix.NonsingularInverse

/-!
# C126: gain and offset of pan and MS images
-/

set_option autoImplicit false
set_option linter.unusedSectionVars false

namespace Verif.PanProcess

open Verif.PanSharp Verif.Common Verif.Tiles Verif.Files
open Verif.Ortho (Pix)
open Verif.OrthoProcess (Names OptsOk ProfileOk CanOpen profile_ok)

variable {C : Type}

/-! ## Specification -/

/-- The value `g * x + k` for the value `x` of a pixel, and nodata for nodata. -/
def affine (g k : ℝ) (x : Pix ℝ) : Pix ℝ := x.map fun y => g * y + k

/-- The images of `o` with another gain and offset of pan.  Average resampling of pan to the MS grid (orthority/pan_sharp.py:276-278) is then of values with the
same gain and offset: averages have weights with sum 1.  Nothing else changes. -/
def Obj.withPan (o : Obj C) (g k : ℝ) : Obj C :=
  { o with panToMs := fun i r c => affine g k (o.panToMs i r c), panToPan := fun i r c => affine g k (o.panToPan i r c) }

/-- The images of `o` with another gain of all MS bands, and an offset `k i` of each MS band `i`.  This also holds of the bands that GDAL interpolates. -/
def Obj.withMs (o : Obj C) (g : ℝ) (k : ℤ → ℝ) : Obj C :=
  { o with msToMs := fun i r c => affine g (k i) (o.msToMs i r c), msToPan := fun s i r c => affine g (k i) (o.msToPan s i r c) }

/-- What is assumed of `np.linalg.lstsq` here: with a matrix and right side that are multiples of others, the solution is a multiple of the other.  This is so of the
least squares solution of least norm, and of its cut-off of small singular values, which is relative to the largest. -/
def Scales (ls : List (List ℝ) → List ℝ → List ℝ) : Prop :=
  ∀ (A : List (List ℝ)) (b : List ℝ) (c d : ℝ), 0 < c → 0 < d →
    ls (A.map fun row => row.map (d * ·)) (b.map (c * ·)) = (ls A b).map (c / d * ·)

/-! ## Lemmas: numbers with NaN -/

theorem fl_mul_add (x y z : Fl ℝ) : x * (y + z) = x * y + x * z := by
  cases x <;> cases y <;> cases z <;> simp [mul_add]

theorem fl_add_assoc (x y z : Fl ℝ) : x + y + z = x + (y + z) := by
  cases x <;> cases y <;> cases z <;> simp [add_assoc]

theorem fl_add_comm (x y : Fl ℝ) : x + y = y + x := by
  cases x <;> cases y <;> simp [add_comm]

theorem fl_div_scale {c d : ℝ} (hd : 0 < d) (x y : Fl ℝ) : (Fl.val c * x) / (Fl.val d * y) = Fl.val (c / d) * (x / y) := by
  cases x <;> cases y <;> simp [Fl.val_div]
  rename_i x y
  by_cases h : y = 0
  · simp [h]
  · simp only [hd.ne', h, or_self, if_false, Fl.val.injEq]
    field_simp

theorem fl_div_same {d : ℝ} (hd : 0 < d) (x y : Fl ℝ) : (Fl.val d * x) / (Fl.val d * y) = x / y := by
  rw [fl_div_scale hd, div_self hd.ne']
  cases h : x / y <;> simp

theorem rsum_scale (s : ℝ) (l : List (Fl ℝ)) : rsum (l.map (Fl.val s * ·)) = Fl.val s * rsum l := by
  induction l with
  | nil => show (0 : Fl ℝ) = Fl.val s * 0; simp [fl_zero]
  | cons a l ih =>
    show Fl.val s * a + rsum (l.map (Fl.val s * ·)) = Fl.val s * (a + rsum l)
    rw [ih, fl_mul_add]

theorem rdot_succ (n : ℕ) (x y : ℕ → Fl ℝ) : rdot (n + 1) x y = rdot n x y + x n * y n := by
  have e : ∀ (l : List (Fl ℝ)) (a : Fl ℝ), rsum (l ++ [a]) = rsum l + a := by
    intro l a
    induction l with
    | nil => show a + 0 = 0 + a; cases a <;> simp [fl_zero]
    | cons b l ih =>
      show b + rsum (l ++ [a]) = b + rsum l + a
      rw [ih, fl_add_assoc]
  unfold rdot
  rw [List.range_succ, List.map_append, List.map_singleton, e]

theorem rdot_affine (n : ℕ) (s : ℝ) (x y z : ℕ → Fl ℝ) :
    rdot n x (fun i => Fl.val s * y i + z i) = Fl.val s * rdot n x y + rdot n x z := by
  induction n with
  | zero => show (0 : Fl ℝ) = Fl.val s * 0 + 0; simp [fl_zero]
  | succ n ih =>
    rw [rdot_succ, rdot_succ, rdot_succ, ih]
    cases rdot n x y <;> cases rdot n x z <;> cases x n <;> cases y n <;> cases z n <;> simp
    ring

theorem rdot_scale (n : ℕ) (s : ℝ) (x y : ℕ → Fl ℝ) : rdot n x (fun i => Fl.val s * y i) = Fl.val s * rdot n x y := by
  induction n with
  | zero => show (0 : Fl ℝ) = Fl.val s * 0; simp [fl_zero]
  | succ n ih =>
    rw [rdot_succ, rdot_succ, ih]
    cases rdot n x y <;> cases x n <;> cases y n <;> simp
    ring

theorem rdot_nan (n : ℕ) (x y : ℕ → Fl ℝ) : rdot n x y = .nan ↔ ∃ i < n, x i = .nan ∨ y i = .nan := by
  induction n with
  | zero => simp [rdot, rsum, fl_zero]
  | succ n ih =>
    rw [rdot_succ]
    have e : rdot n x y + x n * y n = .nan ↔ rdot n x y = .nan ∨ (x n = .nan ∨ y n = .nan) := by
      cases rdot n x y <;> cases x n <;> cases y n <;> simp
    rw [e, ih]
    constructor
    · rintro (⟨i, hi, h⟩ | h)
      · exact ⟨i, by omega, h⟩
      · exact ⟨n, by omega, h⟩
    · rintro ⟨i, hi, h⟩
      rcases Nat.lt_succ_iff_lt_or_eq.1 hi with hi | rfl
      · exact .inl ⟨i, hi, h⟩
      · exact .inr h

/-! ## Lemmas: weights -/

theorem getD_scale (s : ℝ) (l : List ℝ) (b : ℕ) : (l.map (s * ·)).getD b 0 = s * l.getD b 0 := by
  simp only [List.getD_eq_getElem?_getD, List.getElem?_map]
  cases l[b]? <;> simp

theorem any_scale {s : ℝ} (hs : 0 < s) (l : List ℝ) :
    (l.map (s * ·)).any (fun x => decide (x < 0)) = l.any (fun x => decide (x < 0)) := by
  rw [List.any_map]
  congr 1
  funext x
  simp [mul_neg_iff, hs, not_lt.2 hs.le]

theorem max_scale {s : ℝ} (hs : 0 < s) (x : ℝ) : max (s * x) 0 = s * max x 0 := by
  rw [mul_max_of_nonneg _ _ hs.le, mul_zero]

theorem lsWeights_scale {ls : List (List ℝ) → List ℝ → List ℝ} (hls : Scales ls) {n : ℕ} {cov cov' : ℕ → ℕ → ℝ} {c d : ℝ} (hc : 0 < c) (hd : 0 < d)
    (h0 : ∀ j < n, cov' 0 (j + 1) = c * cov 0 (j + 1)) (h1 : ∀ i < n, ∀ j < n, cov' (i + 1) (j + 1) = d * cov (i + 1) (j + 1))
    (idx : List ℕ) (hidx : ∀ k ∈ idx, ∃ b < n, k = b + 1) : lsWeights ls cov' idx = (lsWeights ls cov idx).map (c / d * ·) := by
  unfold lsWeights
  rw [← hls _ _ c d hc hd]
  congr 1
  · rw [List.map_map]
    apply List.map_congr_left
    intro i hi
    obtain ⟨a, ha, rfl⟩ := hidx i hi
    simp only [Function.comp, List.map_map]
    apply List.map_congr_left
    intro j hj
    obtain ⟨b, hb, rfl⟩ := hidx j hj
    exact h1 a ha b hb
  · rw [List.map_map]
    apply List.map_congr_left
    intro j hj
    obtain ⟨b, hb, rfl⟩ := hidx j hj
    exact h0 b hb

theorem reestimate_scale {ls : List (List ℝ) → List ℝ → List ℝ} (hls : Scales ls) {n : ℕ} {cov cov' : ℕ → ℕ → ℝ} {c d : ℝ} (hc : 0 < c) (hd : 0 < d)
    (h0 : ∀ j < n, cov' 0 (j + 1) = c * cov 0 (j + 1)) (h1 : ∀ i < n, ∀ j < n, cov' (i + 1) (j + 1) = d * cov (i + 1) (j + 1))
    (w : List ℝ) : reestimate ls n cov' (w.map (c / d * ·)) = (reestimate ls n cov w).map (c / d * ·) := by
  have hs : 0 < c / d := div_pos hc hd
  unfold reestimate
  have e : (List.range n).filter (fun b => decide (0 < (w.map (c / d * ·)).getD b 0)) = (List.range n).filter (fun b => decide (0 < w.getD b 0)) := by
    congr 1
    funext b
    rw [getD_scale]
    simp only [mul_pos_iff_of_pos_left hs]
  rw [e]
  have hidx : ∀ k ∈ ((List.range n).filter fun b => decide (0 < w.getD b 0)).map (fun b => b + 1), ∃ b < n, k = b + 1 := by
    intro k hk
    obtain ⟨b, hb, rfl⟩ := List.mem_map.1 hk
    exact ⟨b, List.mem_range.1 (List.mem_filter.1 hb).1, rfl⟩
  set idx := ((List.range n).filter fun b => decide (0 < w.getD b 0)).map (fun b => b + 1)
  simp only [lsWeights_scale hls hc hd h0 h1 idx hidx]
  have e2 : ((lsWeights ls cov idx).map (c / d * ·)).all (fun x => decide (0 ≤ x)) = (lsWeights ls cov idx).all (fun x => decide (0 ≤ x)) := by
    rw [List.all_map]
    congr 1
    funext x
    simp [mul_nonneg_iff_of_pos_left hs]
  rw [e2]
  split_ifs with hall
  · rw [List.map_map]
    apply List.map_congr_left
    intro b _
    simp only [Function.comp]
    cases idx.idxOf? (b + 1) with
    | some k => exact getD_scale ..
    | none => simp only [getD_scale, max_scale hs]
  · rfl

theorem getWeights_scale {ls : List (List ℝ) → List ℝ → List ℝ} (hls : Scales ls) {n : ℕ} {cov cov' : ℕ → ℕ → ℝ} {c d : ℝ} (hc : 0 < c) (hd : 0 < d)
    (h0 : ∀ j < n, cov' 0 (j + 1) = c * cov 0 (j + 1)) (h1 : ∀ i < n, ∀ j < n, cov' (i + 1) (j + 1) = d * cov (i + 1) (j + 1))
    (weights : Option (List ℝ)) : getWeights ls n cov' weights = getWeights ls n cov weights := by
  have hs : 0 < c / d := div_pos hc hd
  cases weights with
  | some w => rfl
  | none =>
    have hraw : rawWeights ls n cov' none = (rawWeights ls n cov none).map fun w => w.map (c / d * ·) := by
      unfold rawWeights
      have hidx : ∀ k ∈ List.range' 1 n, ∃ b < n, k = b + 1 := by
        intro k hk
        rw [List.mem_range'_1] at hk
        exact ⟨k - 1, by omega, by omega⟩
      simp only [lsWeights_scale hls hc hd h0 h1 _ hidx, any_scale hs, reestimate_scale hls hc hd h0 h1]
      have e : ∀ w : List ℝ, (w.map (c / d * ·)).map (max · 0) = (w.map (max · 0)).map (c / d * ·) := by
        intro w
        simp only [List.map_map]
        apply List.map_congr_left
        intro x _
        exact max_scale hs x
      rw [e, e]
      split_ifs <;> rfl
    unfold getWeights
    rw [hraw]
    cases rawWeights ls n cov none with
    | error e => rfl
    | ok w =>
      show Except.ok _ = Except.ok _
      congr 1
      rw [List.map_map]
      apply List.map_congr_left
      intro x _
      have e : (w.map (c / d * ·)).sum = c / d * w.sum := by simpa using List.sum_map_mul_left w id (c / d)
      simp only [Function.comp, e]
      exact fl_div_same hs (.val x) (.val w.sum)

/-! ## Lemmas: parameters -/

/-- Statistics of images with gain `a` and offset `u` of pan. -/
structure PanStats (a u : ℝ) (means means' : ℕ → ℝ) (cov cov' : ℕ → ℕ → ℝ) : Prop where
  pan : means' 0 = a * means 0 + u
  ms : ∀ b, means' (b + 1) = means (b + 1)
  var : cov' 0 0 = a * a * cov 0 0
  cross : ∀ j, cov' 0 (j + 1) = a * cov 0 (j + 1)
  mss : ∀ i j, cov' (i + 1) (j + 1) = cov (i + 1) (j + 1)

theorem sqrt_scale {a : ℝ} (ha : 0 < a) (x : ℝ) : Real.sqrt (a * a * x) = a * Real.sqrt x := by
  rw [Real.sqrt_mul (mul_self_nonneg a), Real.sqrt_mul_self ha.le]

/-- `np.sqrt`. -/
noncomputable def flSqrt : Fl ℝ → Fl ℝ
  | .val x => if 0 ≤ x then .val (Real.sqrt x) else .nan
  | .nan => .nan

/-- Variance of the simulated pan image, as `panNorm` has it. -/
noncomputable def simVar (n : ℕ) (cov : ℕ → ℕ → ℝ) (w : ℕ → Fl ℝ) : Fl ℝ :=
  rsum ((List.range n).flatMap fun i => (List.range n).map fun j => w i * w j * .val (cov (i + 1) (j + 1)))

theorem panNorm_eq (n : ℕ) (means : ℕ → ℝ) (cov : ℕ → ℕ → ℝ) (w : ℕ → Fl ℝ) : panNorm n means cov w =
    (flSqrt (simVar n cov w) / .val (Real.sqrt (cov 0 0)),
      rdot n w (fun b => .val (means (b + 1))) - flSqrt (simVar n cov w) / .val (Real.sqrt (cov 0 0)) * .val (means 0)) := rfl

/-- The same pixels of pan, each with its gain and offset, give the same sharpened pixels. -/
theorem sharpen_pan {a u : ℝ} (ha : 0 < a) {means means' : ℕ → ℝ} {cov cov' : ℕ → ℕ → ℝ} (h : PanStats a u means means' cov cov') (n : ℕ)
    (wl : List (Fl ℝ)) (pan : ℝ) (ms : ℕ → Fl ℝ) (b : ℕ) :
    sharpen n (mkParams n means' cov' wl) (.val (a * pan + u)) ms b = sharpen n (mkParams n means cov wl) (.val pan) ms b := by
  have hms : (fun i => (mkParams n means' cov' wl).means (i + 1)) = fun i => (mkParams n means cov wl).means (i + 1) :=
    funext fun i => congrArg Fl.val (h.ms i)
  have hc : (fun i j => cov' (i + 1) (j + 1)) = fun i j => cov (i + 1) (j + 1) := funext fun i => funext fun j => h.mss i j
  have hφ : (mkParams n means' cov' wl).φ = (mkParams n means cov wl).φ := by
    show gsCoeffs n (fun i j => cov' (i + 1) (j + 1)) _ = gsCoeffs n (fun i j => cov (i + 1) (j + 1)) _
    rw [hc]
  have hg : (mkParams n means' cov' wl).gain * .val (a * pan + u) + (mkParams n means' cov' wl).bias =
      (mkParams n means cov wl).gain * .val pan + (mkParams n means cov wl).bias := by
    show (panNorm n means' cov' _).1 * _ + (panNorm n means' cov' _).2 = (panNorm n means cov _).1 * _ + (panNorm n means cov _).2
    rw [panNorm_eq, panNorm_eq, h.pan, h.var, sqrt_scale ha]
    simp only [h.ms, h.mss, simVar]
    generalize rdot n _ (fun b => Fl.val (means (b + 1))) = m
    generalize flSqrt _ = q
    cases q <;> cases m <;> simp [Fl.val_div]
    rename_i q m
    by_cases hz : Real.sqrt (cov 0 0) = 0
    · simp [hz]
    · simp only [hz, ha.ne', or_self, if_false, Fl.val_add, Fl.val_sub, Fl.val.injEq]
      field_simp
      ring
  unfold sharpen
  simp only
  rw [hms, hφ, hg]
  rfl

/-! ## Lemmas: workers -/

/-- The workers of `p'` compute the tiles of `p`. -/
structure SameSharp (p p' : SharpIn ℝ) : Prop where
  tile : ∀ w, computeSharp p' w = computeSharp p w
  mask : p'.writeMask = p.writeMask
  out : p'.out = p.out

theorem writeMsk_same {p p' : SharpIn ℝ} (h : SameSharp p p') (w : Win) (t : SharpTile ℝ) (im : ℕ → ℕ → OutCell ℝ) :
    writeMsk p' w t im = writeMsk p w t im := by
  unfold writeMsk
  rw [h.mask]

theorem sstep_same {p p' : SharpIn ℝ} (h : SameSharp p p') {ws : List Win} {s t : SPool ℝ} (hs : SStep p ws s t) : SStep p' ws s t := by
  cases hs with
  | compute i w t h1 h2 h3 => exact .compute s i w t h1 h2 ((h.tile w).trans h3)
  | fail i w e h1 h2 h3 => exact .fail s i w e h1 h2 ((h.tile w).trans h3)
  | acquire i t h1 h2 => exact .acquire s i t h1 h2
  | data i w t h1 h2 h3 => exact .data s i w t h1 h2 h3
  | mask i w t h1 h2 h3 => rw [← writeMsk_same h]; exact .mask s i w t h1 h2 h3

theorem ssteps_same {p p' : SharpIn ℝ} (h : SameSharp p p') {ws : List Win} {s t : SPool ℝ} (hs : SSteps p ws s t) : SSteps p' ws s t := by
  induction hs with
  | refl => exact .refl _
  | tail _ h2 ih => exact .tail ih (sstep_same h h2)

theorem fssteps_same {p p' : SharpIn ℝ} (h : SameSharp p p') {ws : List Win} {s t : SPool ℝ} (hs : FSSteps p ws s t) : FSSteps p' ws s t := by
  induction hs with
  | refl => exact .refl _
  | tail _ h2 ih =>
    refine .tail ih ?_
    cases h2 with
    | step h2 => exact .step (sstep_same h h2)
    | die i e h1 h2 => exact .die _ i e h1 h2
    | dieData i w t part e h1 h2 h3 => exact .dieData _ i w t part e h1 h2 h3
    | dieMask i w t part e h1 h2 h3 => rw [← writeMsk_same h]; exact .dieMask _ i w t part e h1 h2 h3

theorem sharpened_same {p p' : SharpIn ℝ} (h : SameSharp p p') {im : ℕ → ℕ → OutCell ℝ} {r : Res (ℕ → ℕ → OutCell ℝ)} (hs : Sharpened p im r) :
    Sharpened p' im r := by
  cases hs with
  | ok ws s h1 h2 h3 => exact .ok ws s (by rw [h.out]; exact h1) (ssteps_same h h2) h3
  | error ws s i e h1 h2 h3 h4 => exact .error ws s i e (by rw [h.out]; exact h1) (ssteps_same h h2) h3 h4
  | block e h1 => exact .block e (by rw [h.out]; exact h1)

theorem smoment_same {p p' : SharpIn ℝ} (h : SameSharp p p') {im im' : ℕ → ℕ → OutCell ℝ} (hs : SMoment p im im') : SMoment p' im im' := by
  cases hs with
  | before => exact .before
  | during ws s h1 h2 => exact .during ws s (by rw [h.out]; exact h1) (fssteps_same h h2)

/-! ## Lemmas: statistics -/

theorem affine_isSome (g k : ℝ) (x : Pix ℝ) : (affine g k x).isSome = x.isSome := by cases x <;> rfl

theorem affine_getD {g k : ℝ} {x : Pix ℝ} (h : x.isSome) : (affine g k x).getD 0 = g * x.getD 0 + k := by
  obtain ⟨y, rfl⟩ := Option.isSome_iff_exists.1 h
  rfl

theorem batchMean_affine {P : Finset (ℕ × ℕ)} (hP : 0 < P.card) {v v' : ℕ × ℕ → ℕ → ℝ} {i : ℕ} {g k : ℝ} (h : ∀ p ∈ P, v' p i = g * v p i + k) :
    batchMean P v' i = g * batchMean P v i + k := by
  have hP' : (P.card : ℝ) ≠ 0 := by exact_mod_cast hP.ne'
  unfold batchMean
  rw [Finset.sum_congr rfl h, Finset.sum_add_distrib, ← Finset.mul_sum, Finset.sum_const, nsmul_eq_mul]
  field_simp

theorem batchCov_affine {P : Finset (ℕ × ℕ)} (hP : 0 < P.card) {v v' : ℕ × ℕ → ℕ → ℝ} {i j : ℕ} {g k g' k' : ℝ} (hi : ∀ p ∈ P, v' p i = g * v p i + k)
    (hj : ∀ p ∈ P, v' p j = g' * v p j + k') : batchCov P v' i j = g * g' * batchCov P v i j := by
  unfold batchCov batchDev
  rw [batchMean_affine hP hi, batchMean_affine hP hj, Finset.sum_congr rfl fun p hp => by
    rw [hi p hp, hj p hp, show (g * v p i + k - (g * batchMean P v i + k)) * (g' * v p j + k' - (g' * batchMean P v j + k')) =
      g * g' * ((v p i - batchMean P v i) * (v p j - batchMean P v j)) by ring], ← Finset.mul_sum, mul_div_assoc]

theorem P_withPan (o : Obj C) (g k : ℝ) (a : Args) (ix : List ℤ) : (o.withPan g k).P a ix = o.P a ix := by
  unfold Obj.P Obj.withPan
  simp only [affine_isSome]

theorem pan_stats (o : Obj C) (g k : ℝ) (a : Args) (ix : List ℤ) (h2 : 2 ≤ (o.P a ix).card) :
    PanStats g k (batchMean (o.P a ix) (o.v a ix)) (batchMean (o.P a ix) ((o.withPan g k).v a ix)) (batchCov (o.P a ix) (o.v a ix))
      (batchCov (o.P a ix) ((o.withPan g k).v a ix)) := by
  have hP : 0 < (o.P a ix).card := by omega
  have h0 : ∀ p ∈ o.P a ix, (o.withPan g k).v a ix p 0 = g * o.v a ix p 0 + k := by
    intro p hp
    exact affine_getD (Finset.mem_filter.1 hp).2.1
  have h1 : ∀ b, ∀ p ∈ o.P a ix, (o.withPan g k).v a ix p (b + 1) = 1 * o.v a ix p (b + 1) + 0 := by
    intro b p _
    rw [one_mul, add_zero]
    rfl
  refine ⟨batchMean_affine hP h0, fun b => ?_, batchCov_affine hP h0 h0, fun j => ?_, fun i j => ?_⟩
  · rw [batchMean_affine hP (h1 b), one_mul, add_zero]
  · rw [batchCov_affine hP h0 (h1 j), mul_one]
  · rw [batchCov_affine hP (h1 i) (h1 j), mul_one, one_mul]

theorem prepare_withPan (o : Obj C) (g k : ℝ) (a : Args) : prepare (o.withPan g k) a = prepare o a := rfl

theorem stats_total {o o' : Obj C} {a : Args} {ix : List ℤ} (hg : o'.grids = o.grids) (he : o'.statErr = o.statErr) {s : (ℕ → ℝ) × (ℕ → ℕ → Fl ℝ)}
    (h : Stats o a ix (.ok s)) : ∃ s', Stats o' a ix (.ok s') := by
  cases h with
  | ok hw ho hr => exact ⟨_, .ok (by unfold msInfo; rw [hg]; exact hw) ho (by rw [he]; exact hr)⟩

theorem stats_error_same {o o' : Obj C} {a : Args} {ix : List ℤ} (hg : o'.grids = o.grids) (he : o'.statErr = o.statErr) {e : PyErr}
    (h : Stats o a ix (.error e)) : Stats o' a ix (.error e) := by
  cases h with
  | error hw hm hr => exact .error (by unfold msInfo; rw [hg]; exact hw) hm (by rw [he]; exact hr)

theorem mask_pan (o : Obj C) (g k : ℝ) (a : Args) (ix : List ℤ) (r c : ℕ) :
    (onPan (o.withPan g k) a.panIndex a.interp ix).mask r c = (onPan o a.panIndex a.interp ix).mask r c := by
  unfold Images.mask onPan Obj.withPan
  simp only
  cases o.panToPan a.panIndex r c <;> rfl

/-- The parameters of the images with another gain and offset of pan give the same pixels. -/
theorem params_pan (o : Obj C) {g k : ℝ} (hg : 0 < g) (hls : Scales o.ls) (a : Args) (x : Plan) (h2 : 2 ≤ (o.P a x.ix).card)
    {s s' : (ℕ → ℝ) × (ℕ → ℕ → Fl ℝ)} (hs : Stats o a x.ix (.ok s)) (hs' : Stats (o.withPan g k) a x.ix (.ok s')) :
    (∀ e, paramsOf o x.ix.length s x.w = .error e → paramsOf (o.withPan g k) x.ix.length s' x.w = .error e) ∧
    ∀ p, paramsOf o x.ix.length s x.w = .ok p → ∃ p', paramsOf (o.withPan g k) x.ix.length s' x.w = .ok p' ∧
      SameSharp (sharpIn o a x p) (sharpIn (o.withPan g k) a x p') := by
  have h2' : 2 ≤ ((o.withPan g k).P a x.ix).card := by rw [P_withPan]; exact h2
  rw [paramsOf_good hs h2, paramsOf_good hs' h2', P_withPan]
  have hst := pan_stats o g k a x.ix h2
  have hw := getWeights_scale (n := x.ix.length) hls hg one_pos (fun j _ => hst.cross j) (fun i _ j _ => by rw [hst.mss, one_mul]) x.w
  unfold getParams
  rw [show (o.withPan g k).ls = o.ls from rfl, hw]
  cases getWeights o.ls x.ix.length (batchCov (o.P a x.ix) (o.v a x.ix)) x.w with
  | error e => exact ⟨fun _ h => h, fun _ h => by cases h⟩
  | ok wl =>
    refine ⟨fun _ h => (by cases h), fun p hp => ⟨_, rfl, ?_⟩⟩
    obtain rfl := Except.ok.inj hp
    refine ⟨fun w => ?_, rfl, rfl⟩
    unfold computeSharp
    show (match o.tileErr w with | some e => _ | none => _) = (match o.tileErr w with | some e => _ | none => _)
    cases o.tileErr w with
    | some e => rfl
    | none =>
      simp only
      congr 1
      have hm : ∀ r c, (sharpIn (o.withPan g k) a x (mkParams x.ix.length (batchMean (o.P a x.ix) ((o.withPan g k).v a x.ix))
          (batchCov (o.P a x.ix) ((o.withPan g k).v a x.ix)) wl)).im.mask r c =
          (sharpIn o a x (mkParams x.ix.length (batchMean (o.P a x.ix) (o.v a x.ix)) (batchCov (o.P a x.ix) (o.v a x.ix)) wl)).im.mask r c :=
        fun r c => mask_pan o g k a x.ix r c
      rw [SharpTile.mk.injEq]
      refine ⟨?_, funext fun r => funext fun c => hm _ _⟩
      funext b r c
      rw [hm]
      split_ifs with hv
      · have hp : (o.panToPan a.panIndex (w.rowOff + r) (w.colOff + c)).isSome := by
          have := ((mask_iff _ _ _).1 hv).1
          exact Option.isSome_iff_ne_none.2 this
        have e := sharpen_pan hg hst x.ix.length wl ((o.panToPan a.panIndex (w.rowOff + r) (w.colOff + c)).getD 0)
          (fun i => .val ((onPan o a.panIndex a.interp x.ix).vec (w.rowOff + r, w.colOff + c) (i + 1))) b
        rw [← affine_getD hp] at e
        exact congrArg (fun y => convertDtype o.env .float64 (dtOf (dtypeOf o a)) (toVal y)) e
      · rfl

theorem process_pan (o : Obj C) (a : Args) {g k : ℝ} (hg : 0 < g) (hls : Scales o.ls)
    (h2 : ∀ ix, BandsFor o.msCount o.alpha a.msIndexes ix → 2 ≤ (o.P a ix).card) {fs fs' : FS (PanFile C)} {fault : Option (Fault (PanFile C))}
    {r : Res Unit} (h : Process o a fs fault fs' r) : Process (o.withPan g k) a fs fault fs' r := by
  cases h with
  | before h => exact .before h
  | refused h h' => exact .refused h h'
  | fault h h' h'' => exact .fault h h' h''
  | stats h h' h'' h3 => exact .stats h h' h'' (stats_error_same (o := o) (o' := o.withPan g k) rfl rfl h3)
  | params h h' h'' h3 h4 =>
    obtain ⟨s', hs'⟩ := stats_total (o := o) (o' := o.withPan g k) rfl rfl h3
    exact .params h h' h'' hs' ((params_pan o hg hls a _ (h2 _ (choice h).bands) h3 hs').1 _ h4)
  | stopped left h h' h'' h3 h4 h5 h6 =>
    obtain ⟨s', hs'⟩ := stats_total (o := o) (o' := o.withPan g k) rfl rfl h3
    obtain ⟨p', hp', hsame⟩ := (params_pan o hg hls a _ (h2 _ (choice h).bands) h3 hs').2 _ h4
    exact .stopped left h h' h'' hs' hp' (sharpened_same hsame h5) (smoment_same hsame h6)
  | done h h' h'' h3 h4 h5 =>
    obtain ⟨s', hs'⟩ := stats_total (o := o) (o' := o.withPan g k) rfl rfl h3
    obtain ⟨p', hp', hsame⟩ := (params_pan o hg hls a _ (h2 _ (choice h).bands) h3 hs').2 _ h4
    exact .done h h' h'' hs' hp' (sharpened_same hsame h5)

/-! ## Lemmas: MS -/

/-- Statistics of images with gain `g` of all MS bands, and offsets `k`. -/
structure MsStats (n : ℕ) (g : ℝ) (k : ℕ → ℝ) (means means' : ℕ → ℝ) (cov cov' : ℕ → ℕ → ℝ) : Prop where
  pan : means' 0 = means 0
  ms : ∀ b < n, means' (b + 1) = g * means (b + 1) + k b
  var : cov' 0 0 = cov 0 0
  cross : ∀ j < n, cov' 0 (j + 1) = g * cov 0 (j + 1)
  mss : ∀ i < n, ∀ j < n, cov' (i + 1) (j + 1) = g * g * cov (i + 1) (j + 1)

theorem rsum_square {n : ℕ} {s : ℝ} {cov cov' : ℕ → ℕ → ℝ} (h : ∀ i < n, ∀ j < n, cov' i j = s * cov i j) (x : ℕ → Fl ℝ) :
    rsum ((List.range n).flatMap fun i => (List.range n).map fun j => x i * x j * .val (cov' i j)) =
      Fl.val s * rsum ((List.range n).flatMap fun i => (List.range n).map fun j => x i * x j * .val (cov i j)) := by
  rw [← rsum_scale, List.map_flatMap]
  congr 1
  rw [List.flatMap_def, List.flatMap_def]
  congr 1
  apply List.map_congr_left
  intro i hi
  rw [List.map_map]
  apply List.map_congr_left
  intro j hj
  simp only [Function.comp, h i (List.mem_range.1 hi) j (List.mem_range.1 hj)]
  cases x i <;> cases x j <;> simp
  ring

theorem gsCoeff_scale {n : ℕ} {s : ℝ} (hs : 0 < s) {cov cov' : ℕ → ℕ → ℝ} (h : ∀ i < n, ∀ j < n, cov' i j = s * cov i j) (al : ℕ → Fl ℝ) {k : ℕ}
    (hk : k < n) : gsCoeff n cov' al k = gsCoeff n cov al k := by
  unfold gsCoeff
  simp only
  rw [rsum_square h, rdot_congr (x' := al) (y' := fun j => Fl.val s * Fl.val (cov k j)) (fun _ _ => rfl) (fun j hj => congrArg Fl.val (h k hk j hj)),
    rdot_scale, fl_div_same hs]

theorem gsRows_scale {n : ℕ} {s : ℝ} (hs : 0 < s) {cov cov' : ℕ → ℕ → ℝ} (h : ∀ i < n, ∀ j < n, cov' i j = s * cov i j) (w : ℕ → Fl ℝ) {k : ℕ}
    (hk : k ≤ n) : gsRows n cov' w k = gsRows n cov w k := by
  induction k with
  | zero => rfl
  | succ k ih =>
    rw [gsRows, gsRows, ih (by omega)]
    simp only [gsCoeff_scale hs h _ hk]

theorem gsCoeffs_scale {n : ℕ} {s : ℝ} (hs : 0 < s) {cov cov' : ℕ → ℕ → ℝ} (h : ∀ i < n, ∀ j < n, cov' i j = s * cov i j) (w : ℕ → Fl ℝ) {k : ℕ}
    (hk : k < n) (l : ℕ) : gsCoeffs n cov' w k l = gsCoeffs n cov w k l := by
  unfold gsCoeffs
  rw [gsRows_scale hs h w hk.le, gsCoeff_scale hs h _ hk]

theorem flSqrt_scale {g : ℝ} (hg : 0 < g) (x : Fl ℝ) : flSqrt (Fl.val (g * g) * x) = Fl.val g * flSqrt x := by
  cases x with
  | nan => simp [flSqrt]
  | val x =>
    simp only [Fl.val_mul, flSqrt, mul_nonneg_iff_of_pos_left (mul_pos hg hg), sqrt_scale hg]
    split_ifs <;> simp

theorem gsComp_affine {n : ℕ} {g : ℝ} {k : ℕ → ℝ} {ms ms' means means' : ℕ → Fl ℝ} {φ φ' : ℕ → ℕ → Fl ℝ} {w : ℕ → Fl ℝ}
    (hms : ∀ b < n, ms' b = Fl.val g * ms b + .val (k b)) (hmeans : ∀ b < n, means' b = Fl.val g * means b + .val (k b))
    (hφ : ∀ b < n, ∀ l, φ' b l = φ b l) (l : ℕ) (hl : l ≤ n) :
    gsComp n ms' means' φ' w l = Fl.val g * gsComp n ms means φ w l + gsComp n (fun b => .val (k b)) (fun b => .val (k b)) φ w l := by
  induction l using Nat.strong_induction_on with
  | _ l ih =>
    cases l with
    | zero =>
      rw [gsComp_zero, gsComp_zero, gsComp_zero, ← rdot_affine]
      exact rdot_congr (fun _ _ => rfl) hms
    | succ b =>
      rw [gsComp_succ, gsComp_succ, gsComp_succ, rdot_congr (x' := φ b) (fun i _ => hφ b hl i) (fun i hi => ih i hi (by omega)), rdot_affine,
        hms b hl, hmeans b hl]
      cases ms b <;> cases means b <;> cases rdot (b + 1) (φ b) (gsComp n ms means φ w) <;>
        cases rdot (b + 1) (φ b) (gsComp n (fun b => .val (k b)) (fun b => .val (k b)) φ w) <;> simp
      ring

theorem gsComp_nan {n : ℕ} {k : ℕ → ℝ} {ms means : ℕ → Fl ℝ} {φ : ℕ → ℕ → Fl ℝ} {w : ℕ → Fl ℝ} (l : ℕ)
    (h : gsComp n (fun b => .val (k b)) (fun b => .val (k b)) φ w l = .nan) : gsComp n ms means φ w l = .nan := by
  induction l using Nat.strong_induction_on with
  | _ l ih =>
    cases l with
    | zero =>
      rw [gsComp_zero, rdot_nan] at h
      rw [gsComp_zero, rdot_nan]
      obtain ⟨i, hi, h⟩ := h
      exact ⟨i, hi, .inl (h.resolve_right (by simp))⟩
    | succ b =>
      rw [gsComp_succ] at h
      rw [gsComp_succ]
      have h' : rdot (b + 1) (φ b) (gsComp n (fun b => .val (k b)) (fun b => .val (k b)) φ w) = .nan := by
        cases hr : rdot (b + 1) (φ b) (gsComp n (fun b => .val (k b)) (fun b => .val (k b)) φ w) with
        | nan => rfl
        | val x => rw [hr] at h; simp at h
      obtain ⟨i, hi, h'⟩ := (rdot_nan _ _ _).1 h'
      rw [(rdot_nan _ _ _).2 ⟨i, hi, h'.imp_right (ih i hi)⟩, Fl.sub_nan]

/-- `sharpen` by the components of the transform. -/
theorem sharpen_comp (n : ℕ) (p : Params (Fl ℝ)) (pan : Fl ℝ) (ms : ℕ → Fl ℝ) {b : ℕ} (hb : b < n) :
    sharpen n p pan ms b = gsComp n ms (fun i => p.means (i + 1)) p.φ p.w (b + 1) + p.means (b + 1) +
      rdot (b + 1) (p.φ b) (fun l => if l = 0 then p.gain * pan + p.bias else gsComp n ms (fun i => p.means (i + 1)) p.φ p.w l) := by
  unfold sharpen gsReverse
  simp only
  have hlen : (gsForward n ms (fun i => p.means (i + 1)) p.φ p.w n).length = n + 1 := gsForward_length ..
  have e : ∀ l ≤ n, ((gsForward n ms (fun i => p.means (i + 1)) p.φ p.w n).set 0 (p.gain * pan + p.bias)).getD l 0 =
      if l = 0 then p.gain * pan + p.bias else gsComp n ms (fun i => p.means (i + 1)) p.φ p.w l := by
    intro l hl
    rw [List.getD_eq_getElem?_getD, List.getElem?_set]
    by_cases h0 : l = 0
    · subst h0
      simp [hlen]
    · rw [if_neg (Ne.symm h0), if_neg h0, ← List.getD_eq_getElem?_getD, gsForward_getD _ _ _ _ _ hl]
  rw [e (b + 1) (by omega), if_neg (by omega)]
  congr 1
  exact rdot_congr (fun _ _ => rfl) fun l hl => e l (by omega)

/-- Sharpened MS pixels have the gain and offsets of the MS bands. -/
theorem sharpen_ms {n : ℕ} {g : ℝ} (hg : 0 < g) {k : ℕ → ℝ} {means means' : ℕ → ℝ} {cov cov' : ℕ → ℕ → ℝ} (h : MsStats n g k means means' cov cov')
    (wl : List (Fl ℝ)) (pan : ℝ) (ms ms' : ℕ → ℝ) (hms : ∀ b < n, ms' b = g * ms b + k b) (b : ℕ) (hb : b < n) :
    sharpen n (mkParams n means' cov' wl) (.val pan) (fun i => .val (ms' i)) b =
      Fl.val g * sharpen n (mkParams n means cov wl) (.val pan) (fun i => .val (ms i)) b + .val (k b) := by
  set p := mkParams n means cov wl with hp
  set p' := mkParams n means' cov' wl with hp'
  have hw : p'.w = p.w := rfl
  have hφ : ∀ b < n, ∀ l, p'.φ b l = p.φ b l := fun b hb l => gsCoeffs_scale (mul_pos hg hg) h.mss _ hb l
  have hmeans : ∀ b < n, p'.means (b + 1) = Fl.val g * p.means (b + 1) + .val (k b) := fun b hb => congrArg Fl.val (h.ms b hb)
  have hms' : ∀ b < n, Fl.val (ms' b) = Fl.val g * Fl.val (ms b) + .val (k b) := fun b hb => congrArg Fl.val (hms b hb)
  have hpan : p'.gain * .val pan + p'.bias = Fl.val g * (p.gain * .val pan + p.bias) + rdot n p.w (fun b => .val (k b)) := by
    show (panNorm n means' cov' _).1 * _ + (panNorm n means' cov' _).2 = Fl.val g * ((panNorm n means cov p.w).1 * _ + (panNorm n means cov p.w).2) + _
    rw [panNorm_eq, panNorm_eq, h.pan, h.var]
    have e1 : rdot n (fun b => wl.getD b 0) (fun b => .val (means' (b + 1))) =
        Fl.val g * rdot n p.w (fun b => .val (means (b + 1))) + rdot n p.w (fun b => .val (k b)) := by
      rw [← rdot_affine]
      exact rdot_congr (fun _ _ => rfl) hmeans
    have e2 : simVar n cov' (fun b => wl.getD b 0) = Fl.val (g * g) * simVar n cov p.w := rsum_square h.mss _
    rw [e1, e2, flSqrt_scale hg]
    have e3 : (Fl.val g * flSqrt (simVar n cov p.w)) / Fl.val (Real.sqrt (cov 0 0)) =
        Fl.val g * (flSqrt (simVar n cov p.w) / Fl.val (Real.sqrt (cov 0 0))) := by
      have := fl_div_scale (c := g) one_pos (flSqrt (simVar n cov p.w)) (Fl.val (Real.sqrt (cov 0 0)))
      simpa using this
    rw [e3]
    cases flSqrt (simVar n cov p.w) / Fl.val (Real.sqrt (cov 0 0)) <;> cases rdot n p.w (fun b => .val (means (b + 1))) <;>
      cases rdot n p.w (fun b => Fl.val (k b)) <;> simp
    ring
  rw [sharpen_comp n p' _ _ hb, sharpen_comp n p _ _ hb]
  have hcomp := gsComp_affine (w := p.w) hms' (means := fun i => p.means (i + 1)) (means' := fun i => p'.means (i + 1)) hmeans hφ
  set D := gsComp n (fun b => Fl.val (k b)) (fun b => .val (k b)) p.φ p.w with hD
  rw [hw, hcomp (b + 1) hb, hmeans b hb]
  have hdot : rdot (b + 1) (p'.φ b) (fun l => if l = 0 then p'.gain * .val pan + p'.bias else
        gsComp n (fun i => .val (ms' i)) (fun i => p'.means (i + 1)) p'.φ p.w l) =
      Fl.val g * rdot (b + 1) (p.φ b) (fun l => if l = 0 then p.gain * .val pan + p.bias else
        gsComp n (fun i => .val (ms i)) (fun i => p.means (i + 1)) p.φ p.w l) + rdot (b + 1) (p.φ b) D := by
    rw [← rdot_affine]
    refine rdot_congr (fun l _ => hφ b hb l) fun l hl => ?_
    by_cases h0 : l = 0
    · subst h0
      simp only [if_true]
      exact hpan
    · simp only [h0, if_false]
      exact hcomp l (by omega)
  rw [hdot]
  have hDs : D (b + 1) = .val (k b) - .val (k b) - rdot (b + 1) (p.φ b) D := gsComp_succ ..
  rw [hDs]
  cases hR : rdot (b + 1) (p.φ b) D with
  | nan =>
    have hn : gsComp n (fun i => .val (ms i)) (fun i => p.means (i + 1)) p.φ p.w (b + 1) = .nan := by
      apply gsComp_nan (k := k)
      rw [← hD, hDs, hR, Fl.sub_nan]
    rw [hn]
    simp
  | val x =>
    generalize rdot (b + 1) (p.φ b) _ = y
    generalize gsComp n (fun i => Fl.val (ms i)) (fun i => p.means (i + 1)) p.φ p.w (b + 1) = z
    cases y <;> cases z <;> cases p.means (b + 1) <;> simp
    ring

theorem P_withMs (o : Obj C) (g : ℝ) (k : ℤ → ℝ) (a : Args) (ix : List ℤ) : (o.withMs g k).P a ix = o.P a ix := by
  unfold Obj.P Obj.withMs
  simp only [affine_isSome]

theorem ms_stats (o : Obj C) (g : ℝ) (k : ℤ → ℝ) (a : Args) (ix : List ℤ) (h2 : 2 ≤ (o.P a ix).card) :
    MsStats ix.length g (fun b => k (ix.getD b 0)) (batchMean (o.P a ix) (o.v a ix)) (batchMean (o.P a ix) ((o.withMs g k).v a ix))
      (batchCov (o.P a ix) (o.v a ix)) (batchCov (o.P a ix) ((o.withMs g k).v a ix)) := by
  have hP : 0 < (o.P a ix).card := by omega
  have h0 : ∀ p ∈ o.P a ix, (o.withMs g k).v a ix p 0 = 1 * o.v a ix p 0 + 0 := by
    intro p _
    rw [one_mul, add_zero]
    rfl
  have h1 : ∀ b < ix.length, ∀ p ∈ o.P a ix, (o.withMs g k).v a ix p (b + 1) = g * o.v a ix p (b + 1) + k (ix.getD b 0) := by
    intro b hb p hp
    exact affine_getD ((Finset.mem_filter.1 hp).2.2 _ (by simp [List.getD, hb]))
  refine ⟨?_, fun b hb => batchMean_affine hP (h1 b hb), ?_, fun j hj => ?_, fun i hi j hj => batchCov_affine hP (h1 i hi) (h1 j hj)⟩
  · rw [batchMean_affine hP h0, one_mul, add_zero]
  · rw [batchCov_affine hP h0 h0, one_mul, one_mul]
  · rw [batchCov_affine hP h0 (h1 j hj), one_mul]

/-! ## Theorems -/

/-- C126: gain and offset of the pan image do not matter: `process` has the same outcomes, files and exceptions with pan values `g * x + k` as with pan values `x`, for
every `g > 0` and `k`, whether weights are given or estimated, when two or more pixels have values. -/
theorem C126_pan (o : Obj C) (a : Args) (g k : ℝ) (hg : 0 < g) (hls : Scales o.ls)
    (h2 : ∀ ix, BandsFor o.msCount o.alpha a.msIndexes ix → 2 ≤ (o.P a ix).card) (fs fs' : FS (PanFile C)) (fault : Option (Fault (PanFile C)))
    (r : Res Unit) : Process (o.withPan g k) a fs fault fs' r ↔ Process o a fs fault fs' r := by
  refine ⟨fun h => ?_, process_pan o a hg hls h2⟩
  have e : (o.withPan g k).withPan g⁻¹ (-(g⁻¹ * k)) = o := by
    have e1 : ∀ x : Pix ℝ, affine g⁻¹ (-(g⁻¹ * k)) (affine g k x) = x := by
      intro x
      cases x with
      | none => rfl
      | some y => exact congrArg some (by field_simp; ring)
    unfold Obj.withPan
    simp only [e1]
  have h3 := process_pan (o.withPan g k) a (g := g⁻¹) (k := -(g⁻¹ * k)) (inv_pos.2 hg) hls (fun ix hix => by rw [P_withPan]; exact h2 ix hix) h
  rwa [e] at h3

/-- C126: with MS values `g * x + k i` in each band `i` in place of `x`, for a `g > 0` that is the same for all bands and any `k`, the pan-sharpened image has the same
profile, georeferencing, colours, overviews and valid pixels, and `g * y + k i`, before conversion to the output type, where it had `y`. -/
theorem C126_ms (o : Obj C) (a : Args) (g : ℝ) (k : ℤ → ℝ) (hg : 0 < g) (hls : Scales o.ls) (hi : InfoOk o) (ho : OptsOk a.opts)
    (h2 : ∀ ix, BandsFor o.msCount o.alpha a.msIndexes ix → 2 ≤ (o.P a ix).card) (fs fs₁ fs₂ : FS (PanFile C))
    (fault₁ fault₂ : Option (Fault (PanFile C))) (path : String) (hn : Names a.file path) (h₁ : Process o a fs fault₁ fs₁ (.ok ()))
    (h₂ : Process (o.withMs g k) a fs fault₂ fs₂ (.ok ())) :
    ∃ f₁ f₂ ix w dtype dt wm, fs₁ = fs.put path (some f₁) ∧ fs₂ = fs.put path (some f₂) ∧ Choice o a ix w dtype dt wm ∧ f₂.profile = f₁.profile ∧
      f₂.crs = f₁.crs ∧ f₂.transform = f₁.transform ∧ f₂.colors = f₁.colors ∧ f₂.ovw = f₁.ovw ∧
      ∀ r < o.grids.panWin.height.toNat, ∀ c < o.grids.panWin.width.toNat, (f₂.im r c).valid = (f₁.im r c).valid ∧ ∀ b < ix.length,
        ((∃ x m, o.Has a ix r c x m) → ∃ y : Fl ℝ, (f₁.im r c).data b = convertDtype o.env .float64 dt (toVal y) ∧
          (f₂.im r c).data b = convertDtype o.env .float64 dt (toVal (.val g * y + .val (k (ix.getD b 0))))) ∧
        ((¬ ∃ x m, o.Has a ix r c x m) → (f₂.im r c).data b = (f₁.im r c).data b) := by
  obtain ⟨x, s, p, im, e1, e2, e3, e4, e5⟩ := process_ok hn h₁
  obtain ⟨x', s', p', im', e1', e2', e3', e4', e5'⟩ := process_ok hn h₂
  rw [show prepare (o.withMs g k) a = prepare o a from rfl, e1] at e1'
  obtain rfl := Except.ok.inj e1'
  have hch := choice e1
  have hpo := profile_ok ho (prepare_ok e1).2.2.2.2
  have h2 := h2 _ hch.bands
  have h2' : 2 ≤ ((o.withMs g k).P a x.ix).card := by rw [P_withMs]; exact h2
  rw [paramsOf_good e2 h2] at e3
  rw [paramsOf_good e2' h2', P_withMs] at e3'
  have hst := ms_stats o g k a x.ix h2
  have hw := getWeights_scale (n := x.ix.length) hls hg (mul_pos hg hg) hst.cross hst.mss x.w
  unfold getParams at e3 e3'
  rw [show (o.withMs g k).ls = o.ls from rfl, hw] at e3'
  cases hwl : getWeights o.ls x.ix.length (batchCov (o.P a x.ix) (o.v a x.ix)) x.w with
  | error e => rw [hwl] at e3; cases e3
  | ok wl =>
    rw [hwl] at e3 e3'
    obtain rfl := Except.ok.inj e3
    obtain rfl := Except.ok.inj e3'
    refine ⟨_, _, x.ix, x.w, _, _, x.wm, e5, e5', hch, rfl, rfl, rfl, rfl, rfl, ?_⟩
    intro r hr c hc
    have hr' : r < (o.info x.p).height := by rw [hi.height _ _ hpo.height]; exact hr
    have hc' : c < (o.info x.p).width := by rw [hi.width _ _ hpo.width]; exact hc
    have hp1 := C52_pixels _ _ _ e4 r hr' c hc'
    have hp2 := C52_pixels _ _ _ e4' r hr' c hc'
    have hval : (onPan (o.withMs g k) a.panIndex a.interp x.ix).Valid (r, c) ↔ (onPan o a.panIndex a.interp x.ix).Valid (r, c) := by
      unfold Images.Valid onPan Obj.withMs
      simp only [← Option.isSome_iff_ne_none, affine_isSome]
    refine ⟨?_, fun b hb => ⟨fun hh => ?_, fun hh => ?_⟩⟩
    · show (im' r c).valid = (im r c).valid
      rw [hp1.2.1, hp2.2.1]
      show (if x.wm = true then decide ((onPan (o.withMs g k) a.panIndex a.interp x.ix).Valid (r, c)) else _) =
        if x.wm = true then decide ((onPan o a.panIndex a.interp x.ix).Valid (r, c)) else _
      split_ifs
      · exact decide_eq_decide.2 hval
      · rfl
    · have hv := valid_iff.2 hh
      obtain ⟨y, m, -, hm⟩ := hh
      have d1 := hp1.1 b
      have d2 := hp2.1 b
      rw [if_pos (show (sharpIn o a x _).im.Valid (r, c) from hv)] at d1
      rw [if_pos (show (sharpIn (o.withMs g k) a x _).im.Valid (r, c) from hval.2 hv)] at d2
      refine ⟨_, d1, ?_⟩
      show (im' r c).data b = _
      rw [d2]
      have e := sharpen_ms hg hst wl ((onPan o a.panIndex a.interp x.ix).vec (r, c) 0) (fun i => (onPan o a.panIndex a.interp x.ix).vec (r, c) (i + 1))
        (fun i => (onPan (o.withMs g k) a.panIndex a.interp x.ix).vec (r, c) (i + 1)) (fun i hi => affine_getD (by rw [hm i hi]; rfl)) b hb
      exact congrArg (fun z => convertDtype o.env .float64 (dtOf (dtypeOf o a)) (toVal z)) e
    · have hv : ¬ (onPan o a.panIndex a.interp x.ix).Valid (r, c) := fun h => hh (valid_iff.1 h)
      have d1 := hp1.1 b
      have d2 := hp2.1 b
      rw [if_neg (show ¬ (sharpIn o a x _).im.Valid (r, c) from hv)] at d1
      rw [if_neg (show ¬ (sharpIn (o.withMs g k) a x _).im.Valid (r, c) from fun h => hv (hval.1 h))] at d2
      show (im' r c).data b = (im r c).data b
      rw [d1, d2]
      rfl

/-- C126 fails for gains that differ between MS bands when weights are given: they are for the values of the bands.  With two bands of mean 0 and variance 1 that are
not correlated, equal weights, and a pan pixel with the mean value, band 1 of the pixel (1, 1) becomes 0; with band 2 doubled, so that the pixel is (1, 2), it becomes
2 / 5, though band 1 is the same. -/
theorem C126_gains_fails (ls : List (List ℝ) → List ℝ → List ℝ) :
    ∃ p p', getParams ls 2 (fun _ => 0) (fun i j => if i = j then 1 else 0) (some [1, 1]) = .ok p ∧
      getParams ls 2 (fun _ => 0) (fun i j => if i = j then (if i = 2 then 2 * 2 else 1) else 0) (some [1, 1]) = .ok p' ∧
      sharpen 2 p (.val 0) (fun _ => .val 1) 0 = .val 0 ∧
      sharpen 2 p' (.val 0) (fun b => .val (if b = 1 then 2 * 1 else 1)) 0 = .val (2 / 5) := by
  refine ⟨_, _, rfl, rfl, ?_, ?_⟩
  all_goals
    rw [sharpen_comp _ _ _ _ (by omega), gsComp_succ]
    norm_num [gsComp_zero, rdot, rsum, mkParams, panNorm, gsCoeffs, gsCoeff, gsRows, List.range_succ, Fl.val_div, List.getD]
    simp only [show (0 : Fl ℝ) = Fl.val 0 from rfl, Fl.val_add, Fl.val_mul, Fl.val_div]
    norm_num [Fl.val_div]

/-! ## Examples -/

/-- The solution with the inverse matrix. -/
noncomputable def inverseLs (A : List (List ℝ)) (b : List ℝ) : List ℝ :=
  List.ofFn (Matrix.mulVec (Matrix.of fun i j : Fin b.length => (A.getD i []).getD j 0)⁻¹ fun j => b.getD j 0)

/-- It solves all systems with a regular matrix. -/
theorem inverseLs_solves (A : List (List ℝ)) (b : List ℝ) (h : (Matrix.of fun i j : Fin b.length => (A.getD i []).getD j 0).det ≠ 0) :
    Solves A b (inverseLs A b) := by
  intro i hi
  set M := Matrix.of fun i j : Fin b.length => (A.getD i []).getD j 0 with hM
  have e : Matrix.mulVec M (Matrix.mulVec M⁻¹ fun j : Fin b.length => b.getD j 0) = fun j : Fin b.length => b.getD j 0 := by
    rw [Matrix.mulVec_mulVec, Matrix.mul_nonsing_inv _ (isUnit_iff_ne_zero.2 h), Matrix.one_mulVec]
  have e2 := congrFun e ⟨i, hi⟩
  rw [Matrix.mulVec, dotProduct] at e2
  rw [Finset.sum_range, ← e2]
  refine Finset.sum_congr rfl fun j _ => ?_
  congr 1
  simp [inverseLs, List.getD_eq_getElem?_getD, hM]

/-- `Scales` can be met by a solution of all systems with a regular matrix. -/
theorem inverseLs_scales : Scales inverseLs := by
  intro A b c d hc hd
  unfold inverseLs
  have key : ∀ (n : ℕ) (hn : n = b.length), List.ofFn (Matrix.mulVec (Matrix.of fun i j : Fin n =>
      ((A.map fun row => row.map (d * ·)).getD i []).getD j 0)⁻¹ fun j => (b.map (c * ·)).getD j 0) =
      (List.ofFn (Matrix.mulVec (Matrix.of fun i j : Fin b.length => (A.getD i []).getD j 0)⁻¹ fun j => b.getD j 0)).map (c / d * ·) := by
    rintro n rfl
    set M := Matrix.of fun i j : Fin b.length => (A.getD i []).getD j 0 with hM
    have e1 : (Matrix.of fun i j : Fin b.length => ((A.map fun row => row.map (d * ·)).getD i []).getD j 0) = d • M := by
      ext i j
      rw [Matrix.smul_apply, hM, Matrix.of_apply, Matrix.of_apply, smul_eq_mul, ← getD_scale]
      congr 1
      simp only [List.getD_eq_getElem?_getD, List.getElem?_map]
      cases A[(i : ℕ)]? <;> simp
    have e2 : (fun j : Fin b.length => (b.map (c * ·)).getD j 0) = c • fun j : Fin b.length => b.getD j 0 := by
      funext j
      rw [getD_scale]
      rfl
    have e3 : (d • M)⁻¹ = d⁻¹ • M⁻¹ := by
      by_cases h : IsUnit M.det
      · exact Matrix.inv_smul' (A := M) (Units.mk0 d hd.ne') h
      · rw [Matrix.nonsing_inv_apply_not_isUnit M h, Matrix.nonsing_inv_apply_not_isUnit, smul_zero]
        rw [Matrix.det_smul]
        intro h'
        exact h (isUnit_of_mul_isUnit_right h')
    rw [e1, e2, e3, Matrix.mulVec_smul, Matrix.smul_mulVec, List.map_ofFn]
    congr 1
    funext j
    simp [smul_eq_mul, div_eq_mul_inv, mul_assoc]
  exact key _ (by simp)

/-- Pan values `2 * x + 100` of the demonstration images: the image that `process` makes of them is one that it makes of the values `x`. -/
example : ∃ (o : Obj ℕ) (fs' : FS (PanFile ℕ)), Process (o.withPan 2 100) (demoArgs 1 (some [1, 2])) (fun _ => none) none fs' (.ok ()) ∧
    Process o (demoArgs 1 (some [1, 2])) (fun _ => none) none fs' (.ok ()) ∧ (o.withPan 2 100).panToPan 1 0 0 ≠ o.panToPan 1 0 0 := by
  let t : Affine ℝ := ⟨1, 0, 0, 0, -1, 0⟩
  let pan : Raster ℝ ℕ := ⟨some 32735, t, 4, 4⟩
  let g : Grids ℝ := ⟨t, t, ⟨0, 0, 4, 4⟩, ⟨0, 0, 2, 2⟩, t, t⟩
  have hready := demo_ready inverseLs pan g 1 (by decide) [1, 2] (by decide) (by decide)
  have hgood := demo_good inverseLs pan g rfl (some [1, 2])
  obtain ⟨⟨fs', hp⟩, -⟩ := C83_completes (demoObj inverseLs pan g) _ (fun _ => none) (demo_info inverseLs pan g) "sharp.tif" [1, 2] none "float64" hready
    ⟨.inl rfl, .inl rfl⟩ (fun _ => rfl) (fun _ => rfl) hgood.two (.inl (by decide))
  refine ⟨demoObj inverseLs pan g, fs', ?_, hp, ?_⟩
  · refine (C126_pan _ _ 2 100 (by norm_num) inverseLs_scales ?_ _ _ _ _).2 hp
    intro ix hix
    obtain rfl := bandsFor_unique hix hready.bands
    exact hgood.two
  · simp [Obj.withPan, affine, demoObj, demoPan]
    try norm_num

/-- MS values `3 * x + 7` in band 1 and `3 * x - 1` in band 2 of the demonstration images. -/
example : ∃ (o : Obj ℕ) (fs₁ fs₂ : FS (PanFile ℕ)) (f₁ f₂ : PanFile ℕ), fs₁ "sharp.tif" = some f₁ ∧ fs₂ "sharp.tif" = some f₂ ∧
    Process o (demoArgs 1 (some [1, 2])) (fun _ => none) none fs₁ (.ok ()) ∧
    Process (o.withMs 3 fun i => if i = 1 then 7 else -1) (demoArgs 1 (some [1, 2])) (fun _ => none) none fs₂ (.ok ()) ∧ f₂.profile = f₁.profile ∧
    ∃ y : Fl ℝ, ∃ dt, (f₁.im 1 3).data 1 = convertDtype o.env .float64 dt (toVal y) ∧
      (f₂.im 1 3).data 1 = convertDtype o.env .float64 dt (toVal (.val 3 * y + .val (-1))) := by
  let t : Affine ℝ := ⟨1, 0, 0, 0, -1, 0⟩
  let pan : Raster ℝ ℕ := ⟨some 32735, t, 4, 4⟩
  let g : Grids ℝ := ⟨t, t, ⟨0, 0, 4, 4⟩, ⟨0, 0, 2, 2⟩, t, t⟩
  let o := demoObj inverseLs pan g
  have hready := demo_ready inverseLs pan g 1 (by decide) [1, 2] (by decide) (by decide)
  have hgood := demo_good inverseLs pan g rfl (some [1, 2])
  obtain ⟨⟨fs₁, h1⟩, -⟩ := C83_completes o _ (fun _ => none) (demo_info inverseLs pan g) "sharp.tif" [1, 2] none "float64" hready
    ⟨.inl rfl, .inl rfl⟩ (fun _ => rfl) (fun _ => rfl) hgood.two (.inl (by decide))
  obtain ⟨⟨fs₂, h2⟩, -⟩ := C83_completes (o.withMs 3 fun i => if i = 1 then 7 else -1) (demoArgs 1 (some [1, 2])) (fun _ => none)
    (let h := demo_info inverseLs pan g; ⟨h.height, h.width, h.block⟩) "sharp.tif" [1, 2] none "float64"
    ⟨hready.images, hready.interp, hready.bands, hready.range, hready.weights, hready.nonneg, hready.type, hready.profile⟩
    ⟨.inl rfl, .inl rfl⟩ (fun _ => rfl) (fun _ => rfl) (by rw [P_withMs]; exact hgood.two) (.inl (by decide))
  obtain ⟨f₁, f₂, ix, w, dtype, dt, wm, e1, e2, hch, e3, -, -, -, -, hpx⟩ := C126_ms o (demoArgs 1 (some [1, 2])) 3 (fun i => if i = 1 then 7 else -1)
    (by norm_num) inverseLs_scales (demo_info inverseLs pan g) ⟨by simp [Dict.Ok, demoArgs], by intro k _; rfl⟩
    (fun ix hix => by obtain rfl := bandsFor_unique hix hready.bands; exact hgood.two) _ _ _ _ _ "sharp.tif" (.inl rfl) h1 h2
  obtain rfl := bandsFor_unique hch.bands hready.bands
  obtain ⟨y, hy1, hy2⟩ := ((hpx 1 (by decide) 3 (by decide)).2 1 (by decide)).1
    ⟨9, fun k => if k = 1 then 1 else 0, by simp [o, demoObj, demoPan, demoArgs], by
      intro k hk
      have hk : k < 2 := hk
      interval_cases k <;> simp [o, demoObj, demoMs]⟩
  exact ⟨o, fs₁, fs₂, f₁, f₂, by rw [e1]; simp [FS.put], by rw [e2]; simp [FS.put], h1, h2, e3, y, dt, hy1, hy2⟩

end Verif.PanProcess
