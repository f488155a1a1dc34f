import Verif.Base.Rounding

/-!
# C103: GCPs are not spoilt by the conversion to float32

OpenCV takes `float32` coordinates, which are too coarse for world coordinates (steps of half a metre at northings of millions
of metres).  `_gcps_to_cv_coords` therefore gives it the differences from the mean of the GCPs.
-/

set_option autoImplicit false

namespace Verif.Frame.FitRounding

/-! ## Model -/

/-- A sum of numbers as `numpy.mean` may compute it: pairs of numbers or sums are added, in any order, and each sum is rounded
(NumPy adds by row or in blocks, depending on the layout of the array). -/
inductive Sums (fl : ℝ → ℝ) : List ℝ → ℝ → Prop
  | one (x : ℝ) : Sums fl [x] x
  | add (l l' l'' : List ℝ) (r r' : ℝ) : Sums fl l r → Sums fl l' r' → l''.Perm (l ++ l') → Sums fl l'' (fl (r + r'))

/-- One axis of orthority/fit.py:153 `ref_xyz = np.vstack(xyzs).mean(axis=0)`, of the coordinates of all GCPs of all images. -/
def Ref (fl64 : ℝ → ℝ) (xs : List ℝ) (ref : ℝ) : Prop := ∃ r, Sums fl64 xs r ∧ ref = fl64 (r / xs.length)

/-- One axis of orthority/fit.py:154 `(xyz - ref_xyz).astype('float32')`. -/
def cvWorld (fl64 fl32 : ℝ → ℝ) (ref x : ℝ) : ℝ := fl32 (fl64 (x - ref))

/-- One axis of orthority/fit.py:149 `ji.astype('float32')`. -/
def cvPixel (fl32 : ℝ → ℝ) (j : ℝ) : ℝ := fl32 j

/-! ## Proofs -/

theorem sums_length {fl : ℝ → ℝ} {l : List ℝ} {r : ℝ} (h : Sums fl l r) : 1 ≤ l.length := by
  induction h with
  | one x => simp
  | add l l' l'' r r' _ _ hp ih ih' => rw [hp.length_eq, List.length_append]; omega

theorem abs_sum_le {l : List ℝ} {B : ℝ} (h : ∀ x ∈ l, |x| ≤ B) : |l.sum| ≤ l.length * B := by
  induction l with
  | nil => simp
  | cons a l ih =>
    rw [List.sum_cons, List.length_cons]
    have h1 := h a (List.mem_cons_self ..)
    have h2 := ih fun x hx => h x (List.mem_cons_of_mem _ hx)
    have h3 := abs_add_le a l.sum
    push_cast
    linarith

/-- The error of a sum of `n` numbers grows no faster than with `n` squared. -/
theorem sums_err {u m M : ℝ} {fl : ℝ → ℝ} (h : Rounds u m M fl) (hu : 0 ≤ u) {B : ℝ} (hm : m ≤ B) (hB : 0 ≤ B) {l : List ℝ}
    {r : ℝ} (hs : Sums fl l r) (hl : ∀ x ∈ l, |x| ≤ B) (hn : l.length * u ≤ 1) (hM : 2 * l.length * B ≤ M) :
    |r - l.sum| ≤ l.length * (l.length - 1) * (u * B) := by
  induction hs with
  | one x => simp
  | add l l' l'' r r' h1 h2 hp ih ih' =>
    have hmem : ∀ x, x ∈ l'' ↔ x ∈ l ∨ x ∈ l' := fun x => by rw [hp.mem_iff, List.mem_append]
    have hlen : (l''.length : ℝ) = l.length + l'.length := by rw [hp.length_eq, List.length_append]; push_cast; rfl
    have g1 : (1 : ℝ) ≤ l.length := by exact_mod_cast sums_length h1
    have g2 : (1 : ℝ) ≤ l'.length := by exact_mod_cast sums_length h2
    have b1 := abs_sum_le fun x hx => hl x ((hmem x).mpr (Or.inl hx))
    have b2 := abs_sum_le fun x hx => hl x ((hmem x).mpr (Or.inr hx))
    rw [hp.sum_eq, List.sum_append]
    rw [hlen] at hn hM ⊢
    have e1 := ih (fun x hx => hl x ((hmem x).mpr (Or.inl hx))) (by nlinarith) (by nlinarith)
    have e2 := ih' (fun x hx => hl x ((hmem x).mpr (Or.inr hx))) (by nlinarith) (by nlinarith)
    generalize (l.length : ℝ) = n at *
    generalize (l'.length : ℝ) = n' at *
    have huB : 0 ≤ u * B := mul_nonneg hu hB
    have hn1 : n * u ≤ 1 := by nlinarith
    have hn2 : n' * u ≤ 1 := by nlinarith
    -- the sums are at most (n + n') B and a part of it
    have c1 : n * (n - 1) * (u * B) ≤ (n - 1) * B := by
      have : n * (n - 1) * (u * B) = (n * u) * ((n - 1) * B) := by ring
      rw [this]
      exact mul_le_of_le_one_left (mul_nonneg (by linarith) hB) hn1
    have c2 : n' * (n' - 1) * (u * B) ≤ (n' - 1) * B := by
      have : n' * (n' - 1) * (u * B) = (n' * u) * ((n' - 1) * B) := by ring
      rw [this]
      exact mul_le_of_le_one_left (mul_nonneg (by linarith) hB) hn2
    have hsum : |r + r'| ≤ (n + n') * B + ((n - 1) * B + (n' - 1) * B) := by
      have := abs_le.1 e1; have := abs_le.1 e2; have := abs_le.1 b1; have := abs_le.1 b2
      exact abs_le.2 ⟨by linarith, by linarith⟩
    have herr := h.abs_err hu hsum (by nlinarith) (by nlinarith)
    have e3 := abs_le.1 herr
    have e1 := abs_le.1 e1
    have e2 := abs_le.1 e2
    have key : n * (n - 1) * (u * B) + n' * (n' - 1) * (u * B) + u * ((n + n') * B + ((n - 1) * B + (n' - 1) * B)) ≤
        (n + n') * (n + n' - 1) * (u * B) := by
      have : (n + n') * (n + n' - 1) * (u * B) - (n * (n - 1) * (u * B) + n' * (n' - 1) * (u * B) +
          u * ((n + n') * B + ((n - 1) * B + (n' - 1) * B))) = (2 * n * n' - 2 * (n + n') + 2) * (u * B) := by ring
      have h2 : 0 ≤ (2 * n * n' - 2 * (n + n') + 2) * (u * B) := by
        have : 2 * n * n' - 2 * (n + n') + 2 = 2 * ((n - 1) * (n' - 1)) := by ring
        rw [this]
        have := mul_nonneg (sub_nonneg.2 g1) (sub_nonneg.2 g2)
        positivity
      linarith
    refine abs_le.2 ⟨?_, ?_⟩ <;> linarith

theorem mean_near {xs : List ℝ} (hne : xs ≠ []) {x D : ℝ} (h : ∀ y ∈ xs, |x - y| ≤ D) : |x - xs.sum / xs.length| ≤ D := by
  have hn : (0 : ℝ) < xs.length := by exact_mod_cast List.length_pos_of_ne_nil hne
  have hs : ∀ l : List ℝ, (∀ y ∈ l, |x - y| ≤ D) → |l.length * x - l.sum| ≤ l.length * D := by
    intro l
    induction l with
    | nil => simp
    | cons a l ih =>
      intro hl
      have h1 := abs_le.1 (hl a (List.mem_cons_self ..))
      have h2 := abs_le.1 (ih fun y hy => hl y (List.mem_cons_of_mem _ hy))
      rw [List.sum_cons, List.length_cons]
      push_cast
      exact abs_le.2 ⟨by linarith, by linarith⟩
  have h1 := hs xs h
  have h2 : x - xs.sum / xs.length = (xs.length * x - xs.sum) / xs.length := by field_simp
  rw [h2, abs_div, abs_of_pos hn, div_le_iff₀ hn]
  linarith

/-- The computed mean is within a few units in the last place of the largest coordinate of the mean. -/
theorem ref_err {u m M : ℝ} {fl : ℝ → ℝ} (h : Rounds u m M fl) (hu : 0 ≤ u) {B : ℝ} (hm : m ≤ B) (hB : 0 ≤ B) {xs : List ℝ}
    {ref : ℝ} (hr : Ref fl xs ref) (hl : ∀ x ∈ xs, |x| ≤ B) (hn : xs.length * u ≤ 1) (hM : 2 * xs.length * B ≤ M) :
    |ref - xs.sum / xs.length| ≤ (xs.length + 1) * (u * B) := by
  obtain ⟨r, hs, rfl⟩ := hr
  have hlen : (1 : ℝ) ≤ xs.length := by exact_mod_cast sums_length hs
  have e := sums_err h hu hm hB hs hl hn hM
  have hb := abs_sum_le hl
  generalize (xs.length : ℝ) = n at *
  have hn0 : 0 < n := by linarith
  have huB : 0 ≤ u * B := mul_nonneg hu hB
  have e1 : |r / n - xs.sum / n| ≤ (n - 1) * (u * B) := by
    rw [← sub_div, abs_div, abs_of_pos hn0, div_le_iff₀ hn0]
    linarith
  have b1 : |xs.sum / n| ≤ B := by
    rw [abs_div, abs_of_pos hn0, div_le_iff₀ hn0]
    linarith
  have c1 : (n - 1) * (u * B) ≤ B := by nlinarith
  have b2 : |r / n| ≤ 2 * B := by
    have := abs_le.1 e1; have := abs_le.1 b1
    exact abs_le.2 ⟨by linarith, by linarith⟩
  have e2 := h.abs_err hu b2 (by linarith) (by nlinarith)
  have := abs_le.1 e1; have := abs_le.1 e2
  exact abs_le.2 ⟨by linarith, by linarith⟩

theorem tiny : (1 : ℝ) / 2 ^ 1022 ≤ 1 / 2 ^ 126 :=
  one_div_le_one_div_of_le (by positivity) (pow_le_pow_right₀ (by norm_num) (by norm_num))

theorem huge : (2 : ℝ) ^ 126 ≤ 2 ^ 1023 := pow_le_pow_right₀ (by norm_num) (by norm_num)

/-- The conversion of a difference from any reference. -/
theorem cvWorld_err {fl64 fl32 : ℝ → ℝ} (h64 : Rounds64 fl64) (h32 : Rounds32 fl32) {x ref D : ℝ} (hD : |x - ref| ≤ D)
    (hM : D ≤ 2 ^ 126) : |ref + cvWorld fl64 fl32 ref x - x| ≤ 1 / 2 ^ 23 * max D (1 / 2 ^ 126) := by
  unfold cvWorld
  generalize hE : max D (1 / 2 ^ 126) = E
  have hDE : D ≤ E := hE ▸ le_max_left _ _
  have hmE : (1 : ℝ) / 2 ^ 126 ≤ E := hE ▸ le_max_right _ _
  have hEM : E ≤ 2 ^ 126 := by
    rw [← hE]
    exact max_le hM (by norm_num)
  have e1 := h64.abs_err (by norm_num) (hD.trans hDE) (le_trans tiny hmE) (hEM.trans huge)
  have hE0 : 0 < E := lt_of_lt_of_le (by norm_num) hmE
  have b1 : |fl64 (x - ref)| ≤ (1 + 1 / 2 ^ 53) * E := by
    have := abs_le.1 e1; have := abs_le.1 (hD.trans hDE)
    exact abs_le.2 ⟨by linarith, by linarith⟩
  have e2 := h32.abs_err (by norm_num) b1 (le_trans hmE (by nlinarith)) (by nlinarith)
  have := abs_le.1 e1; have := abs_le.1 e2
  refine abs_le.2 ⟨?_, ?_⟩ <;> nlinarith

/-! ## Theorems -/

/-- C103: the position that OpenCV is given for a GCP, with the reference that is added to the result, is within one part in
2^23 of the spread of the GCPs of the position of the GCP, and a term that grows with the size of the coordinates by no more
than two units in the last place of `float64` for each GCP. -/
theorem C103_world (fl64 fl32 : ℝ → ℝ) (h64 : Rounds64 fl64) (h32 : Rounds32 fl32) (xs : List ℝ) (ref B D : ℝ)
    (href : Ref fl64 xs ref) (hB : ∀ x ∈ xs, |x| ≤ B) (hB1 : 1 ≤ B) (hB2 : B ≤ 2 ^ 60) (hn : xs.length ≤ 2 ^ 50)
    (hD : ∀ x ∈ xs, ∀ y ∈ xs, |x - y| ≤ D) (x : ℝ) (hx : x ∈ xs) :
    |ref + cvWorld fl64 fl32 ref x - x| ≤ 1 / 2 ^ 23 * (D + (xs.length + 1) * (B / 2 ^ 53)) := by
  have hne : xs ≠ [] := List.ne_nil_of_mem hx
  have hn' : (xs.length : ℝ) ≤ 2 ^ 50 := by exact_mod_cast hn
  have hlen : (1 : ℝ) ≤ xs.length := by exact_mod_cast List.length_pos_of_ne_nil hne
  have hD0 : 0 ≤ D := (abs_nonneg _).trans (hD x hx x hx)
  have hD2 : ∀ y ∈ xs, |x - y| ≤ min D (2 * B) := fun y hy => by
    have h1 := abs_le.1 (hB x hx)
    have h2 := abs_le.1 (hB y hy)
    exact le_min (hD x hx y hy) (abs_le.2 ⟨by linarith, by linarith⟩)
  have hu : (1 : ℝ) / 2 ^ 1022 ≤ B := (tiny.trans (by norm_num)).trans hB1
  have hnB : 2 * xs.length * B ≤ (2 : ℝ) ^ 1023 := by
    refine le_trans ?_ huge
    have : 2 * (xs.length : ℝ) * B ≤ 2 * 2 ^ 50 * 2 ^ 60 := by
      have h0 : (0 : ℝ) ≤ xs.length := by linarith
      exact mul_le_mul (by linarith) hB2 (by linarith) (by norm_num)
    exact this.trans (by norm_num)
  have e1 := ref_err h64 (by norm_num) hu (by linarith) href hB (by linarith) hnB
  have e2 := mean_near hne hD2
  have hB53 : 1 / 2 ^ 53 * B = B / 2 ^ 53 := by ring
  rw [hB53] at e1
  have hpos : (0 : ℝ) < B / 2 ^ 53 := by positivity
  have hT : (0 : ℝ) ≤ (xs.length + 1) * (B / 2 ^ 53) := by positivity
  have e3 : |x - ref| ≤ min D (2 * B) + (xs.length + 1) * (B / 2 ^ 53) := by
    have h1 := abs_le.1 e1
    have h2 := abs_le.1 e2
    exact abs_le.2 ⟨by linarith, by linarith⟩
  have e4 := cvWorld_err h64 h32 e3 (by
    have h1 := min_le_right D (2 * B)
    have h2 : (xs.length + 1) * (B / 2 ^ 53) ≤ (2 ^ 50 + 1) * (2 ^ 60 / 2 ^ 53) :=
      mul_le_mul (by linarith) (by linarith) hpos.le (by norm_num)
    have h3 : (2 : ℝ) * 2 ^ 60 + (2 ^ 50 + 1) * (2 ^ 60 / 2 ^ 53) ≤ 2 ^ 126 := by norm_num
    linarith)
  refine e4.trans (mul_le_mul_of_nonneg_left (max_le ?_ ?_) (by norm_num))
  · have := min_le_left D (2 * B)
    linarith
  · have h1 : (1 : ℝ) / 2 ^ 126 ≤ 2 * (1 / 2 ^ 53) := by norm_num
    have h2 : 2 * (1 / 2 ^ 53) ≤ (xs.length + 1) * (B / 2 ^ 53) :=
      mul_le_mul (by linarith) (by linarith) (by norm_num) (by linarith)
    linarith

/-- C103: for coordinates of up to ten million metres, up to a million GCPs, and GCPs that are within ten kilometres of each
other, that is 1.2 millimetres at most. -/
theorem C103_metres (fl64 fl32 : ℝ → ℝ) (h64 : Rounds64 fl64) (h32 : Rounds32 fl32) (xs : List ℝ) (ref : ℝ)
    (href : Ref fl64 xs ref) (hB : ∀ x ∈ xs, |x| ≤ 10 ^ 7) (hn : xs.length ≤ 10 ^ 6)
    (hD : ∀ x ∈ xs, ∀ y ∈ xs, |x - y| ≤ 10 ^ 4) (x : ℝ) (hx : x ∈ xs) :
    |ref + cvWorld fl64 fl32 ref x - x| ≤ 12 / 10 ^ 4 := by
  have h := C103_world fl64 fl32 h64 h32 xs ref (10 ^ 7) (10 ^ 4) href hB (by norm_num) (by norm_num)
    (hn.trans (by norm_num)) hD x hx
  have hn' : (xs.length : ℝ) ≤ 10 ^ 6 := by exact_mod_cast hn
  have h2 : (xs.length + 1) * ((10 : ℝ) ^ 7 / 2 ^ 53) ≤ (10 ^ 6 + 1) * (10 ^ 7 / 2 ^ 53) :=
    mul_le_mul_of_nonneg_right (by linarith) (by norm_num)
  have h3 : (1 : ℝ) / 2 ^ 23 * (10 ^ 4 + (10 ^ 6 + 1) * (10 ^ 7 / 2 ^ 53)) ≤ 12 / 10 ^ 4 := by norm_num
  refine h.trans (le_trans ?_ h3)
  exact mul_le_mul_of_nonneg_left (by linarith) (by norm_num)

/-- C103: the pixel coordinates of a GCP in an image of up to 65536 by 65536 pixels move by 1/256 of a pixel at most. -/
theorem C103_pixel (fl32 : ℝ → ℝ) (h32 : Rounds32 fl32) (j : ℝ) (hj : |j| ≤ 2 ^ 16) : |cvPixel fl32 j - j| ≤ 1 / 256 := by
  have h := h32.abs_err (by norm_num) hj (by norm_num) (by norm_num)
  exact h.trans (by norm_num)

/-- Without the reference, rounding of world coordinates is as coarse as decimetres: a northing of 6000000.25 m is off by 0.25 m. -/
theorem direct_example : |roundBits 24 (-126) 6000000.25 - 6000000.25| = (1 / 4 : ℝ) := by
  have hlog : Int.log 2 |(6000000.25 : ℝ)| = 22 := by
    rw [abs_of_pos (by norm_num)]
    apply le_antisymm
    · have : (6000000.25 : ℝ) < (2 : ℕ) ^ (23 : ℤ) := by norm_num
      have := (Int.lt_zpow_iff_log_lt (b := 2) (by norm_num) (x := 23) (by norm_num : (0 : ℝ) < 6000000.25)).1 this
      omega
    · refine (Int.zpow_le_iff_le_log (b := 2) (by norm_num) (x := 22) (by norm_num : (0 : ℝ) < 6000000.25)).1 ?_
      norm_num
  unfold roundBits
  rw [hlog]
  have h1 : max (22 : ℤ) (-126) - ((24 : ℕ) : ℤ) + 1 = -1 := by norm_num
  rw [h1]
  have h2 : (6000000.25 : ℝ) / 2 ^ (-1 : ℤ) = 12000000.5 := by norm_num
  rw [h2]
  have h3 : round (12000000.5 : ℝ) = 12000001 := by
    rw [round_eq, Int.floor_eq_iff]
    norm_num
  rw [h3]
  norm_num [abs_of_pos]

/-- Two GCPs with northings of millions of metres, with the rounding of IEEE 754. -/
example (r : ℝ) (hr : Sums (roundBits 53 (-1022)) [6000000.25, 6000100] r) :
    let ref := roundBits 53 (-1022) (r / 2)
    |ref + cvWorld (roundBits 53 (-1022)) (roundBits 24 (-126)) ref 6000000.25 - 6000000.25| ≤ 12 / 10 ^ 4 := by
  intro ref
  refine C103_metres _ _ (roundBits_rounds 53 1022 (2 ^ 1023)) (roundBits_rounds 24 126 (2 ^ 127))
    [6000000.25, 6000100] ref ⟨r, hr, ?_⟩ ?_ (by norm_num) ?_ _ (by simp)
  · simp [ref]
  · intro x hx
    simp only [List.mem_cons, List.not_mem_nil, or_false] at hx
    rcases hx with rfl | rfl <;> rw [abs_of_pos (by norm_num)] <;> norm_num
  · intro x hx y hy
    simp only [List.mem_cons, List.not_mem_nil, or_false] at hx hy
    rcases hx with rfl | rfl <;> rcases hy with rfl | rfl <;> rw [abs_le] <;> constructor <;> norm_num

/-- Such a sum exists. -/
example : ∃ r, Sums (roundBits 53 (-1022)) [6000000.25, 6000100] r :=
  ⟨_, .add [6000000.25] [6000100] _ _ _ (.one _) (.one _) (List.Perm.refl _)⟩

end Verif.Frame.FitRounding
