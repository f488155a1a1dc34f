import Verif.PanSharp.Stats
import Verif.Base.Rounding
import Mathlib.Tactic.Linarith
import Mathlib.Tactic.Positivity

/-!
# C116: pan-sharpening statistics in floating point

C47 is about exact arithmetic.  Here every operation of `_get_stats` (orthority/pan_sharp.py:228-312) is rounded.  The order in which tiles complete (`as_completed`), and the
order in which numpy adds numbers, change the last bits of the results.  They are close to the exact means and covariances all the same.
-/

set_option autoImplicit false

namespace Verif.PanSharp
open Verif.Tiles Verif.Ortho

/-! ## Model -/

/-- A sum of numbers as `numpy.mean` (orthority/pan_sharp.py:267) or `numpy.dot` (pan_sharp.py:269) may compute it: the numbers are added two by two, in any order and grouping
(pairwise summation, blocks, vector instructions), and every addition is rounded. -/
inductive SumFl (fl : ℝ → ℝ) : List ℝ → ℝ → Prop
  | one (x : ℝ) : SumFl fl [x] x
  | add {l m : List ℝ} {a b : ℝ} : SumFl fl l a → SumFl fl m b → SumFl fl (l ++ m) (fl (a + b))
  | perm {l m : List ℝ} {a : ℝ} : l.Perm m → SumFl fl l a → SumFl fl m a

/-- `numpy.dot`, orthority/pan_sharp.py:269: products are rounded, or not (fused multiply and add), and are added in any order.  The dot product of empty arrays is zero. -/
def DotFl (fl : ℝ → ℝ) (xy : List (ℝ × ℝ)) (r : ℝ) : Prop :=
  (xy = [] ∧ r = 0) ∨ ∃ p, List.Forall₂ (fun q z => q = fl (z.1 * z.2) ∨ q = z.1 * z.2) p xy ∧ SumFl fl p r

/-- orthority/pan_sharp.py:265-270 `get_tile_stats`, in floating point: `t` is what it may return for the valid pixels `l` of a tile. -/
structure TileFl (fl : ℝ → ℝ) (l : List (ℕ → ℝ)) (t : Agg ℝ) : Prop where
  /-- `tile_n = mask.sum()` -/
  n : t.n = l.length
  /-- `np.zeros(...)` -/
  zero : l = [] → ∀ i, t.means i = 0
  /-- `pan_ms_array.mean(axis=1)` -/
  mean : l ≠ [] → ∀ i, ∃ S, SumFl fl (l.map fun v => v i) S ∧ t.means i = fl (S / fl l.length)
  /-- `pan_ms_array -= tile_mean.reshape(-1, 1)` and `pan_ms_array.dot(pan_ms_array.T)` -/
  prod : ∀ i j, DotFl fl (l.map fun v => (fl (v i - t.means i), fl (v j - t.means j))) (t.prod i j)

/-- orthority/pan_sharp.py:298-305 in floating point.  `n` and `tile_n` are integers: their sum and product are exact (up to 2^63, which is 2^43 pixels with tiles of 2^20
pixels), and are rounded when converted to `float64`. -/
noncomputable def Agg.addFl (fl : ℝ → ℝ) (s t : Agg ℝ) : Agg ℝ :=
  if t.n > 0 then
    let diff := fun i => fl (t.means i - s.means i)
    { n := s.n + t.n
      means := fun i => fl (s.means i + fl (fl (diff i * fl t.n) / fl ((s.n + t.n : ℕ) : ℝ)))
      prod := fun i j => fl (s.prod i j +
        fl (t.prod i j + fl (fl (fl (diff i * diff j) * fl ((s.n * t.n : ℕ) : ℝ)) / fl ((s.n + t.n : ℕ) : ℝ)))) }
  else s

/-- orthority/pan_sharp.py:281-305 in floating point: aggregate the results of tiles in the order in which they complete. -/
noncomputable def aggregateFl (fl : ℝ → ℝ) (ts : List (Agg ℝ)) : Agg ℝ := ts.foldl (Agg.addFl fl) ⟨0, fun _ => 0, fun _ _ => 0⟩

/-- orthority/pan_sharp.py:228-309 `_get_stats` in floating point: `means` and `cov` are what it may return when tiles complete in the given order.  For fewer than two valid
pixels `cov` has divisions by zero or minus one (see C47): the value here is used for two or more only. -/
def Images.StatsFl (fl : ℝ → ℝ) (im : Images ℝ) (order : List Win) (means : ℕ → ℝ) (cov : ℕ → ℕ → ℝ) : Prop :=
  ∃ ts, List.Forall₂ (fun w t => TileFl fl ((im.tilePix w).map im.vec) t) order ts ∧ means = (aggregateFl fl ts).means ∧
    cov = fun i j => fl ((aggregateFl fl ts).prod i j / fl (((aggregateFl fl ts).n - 1 : ℕ) : ℝ))

/-! ## Bounds of errors -/

section Bounds
variable {u m X : ℝ} {fl : ℝ → ℝ}

theorem flNat_err (h : Rounds u m X fl) (hu : 0 ≤ u) (hm : m ≤ 1) {a : ℕ} (ha : (a : ℝ) ≤ X) : |fl a - a| ≤ u * a := by
  rcases Nat.eq_zero_or_pos a with rfl | h0
  · simp [h.zero]
  · have : (1 : ℝ) ≤ a := by exact_mod_cast h0
    refine h.abs_err hu (le_of_eq (abs_of_nonneg (by positivity))) (hm.trans this) ha

theorem sumFl_ne_nil {l : List ℝ} {S : ℝ} (h : SumFl fl l S) : l ≠ [] := by
  induction h with
  | one => simp
  | add _ _ ih _ => simp [ih]
  | perm hp _ ih => intro e; subst e; exact ih hp.eq_nil

theorem abs_sum_le {l : List ℝ} {B : ℝ} (hl : ∀ x ∈ l, |x| ≤ B) : |l.sum| ≤ l.length * B := by
  induction l with
  | nil => simp
  | cons a l ih =>
    have h1 := hl a (by simp)
    have h2 := ih fun x hx => hl x (by simp [hx])
    rw [List.sum_cons, List.length_cons]
    push_cast
    calc |a + l.sum| ≤ |a| + |l.sum| := abs_add_le _ _
      _ ≤ _ := by linarith

/-- Summation in any order: the error is at most `2 * n * u` times the sum of the bounds. -/
theorem sumFl_err (h : Rounds u m X fl) (hu : 0 ≤ u) {B : ℝ} (hB0 : 0 ≤ B) (hm : m ≤ B) {l : List ℝ} {S : ℝ} (hS : SumFl fl l S) (hl : ∀ x ∈ l, |x| ≤ B)
    (hn : 2 * (l.length * u) ≤ 1 / 10) (hX : 2 * (l.length * B) ≤ X) : |S - l.sum| ≤ 2 * (u * B) * (l.length * (l.length - 1)) := by
  induction hS with
  | one x => simp
  | @add l k a b ha hb iha ihb =>
    have pa : (1 : ℝ) ≤ l.length := by exact_mod_cast List.length_pos_iff.2 (sumFl_ne_nil ha)
    have pb : (1 : ℝ) ≤ k.length := by exact_mod_cast List.length_pos_iff.2 (sumFl_ne_nil hb)
    rw [List.length_append] at hn hX ⊢
    push_cast at hn hX ⊢
    have e1 := iha (fun x hx => hl x (by simp [hx])) (by nlinarith) (by nlinarith)
    have e2 := ihb (fun x hx => hl x (by simp [hx])) (by nlinarith) (by nlinarith)
    have s1 : |l.sum| ≤ l.length * B := abs_sum_le fun x hx => hl x (by simp [hx])
    have s2 : |k.sum| ≤ k.length * B := abs_sum_le fun x hx => hl x (by simp [hx])
    generalize (l.length : ℝ) = p at *
    generalize (k.length : ℝ) = q at *
    have c1 : 2 * (u * B) * (p * (p - 1)) ≤ p * B * (1 / 10) := by
      have : 2 * (u * B) * (p * (p - 1)) = p * B * (2 * ((p - 1) * u)) := by ring
      rw [this]
      exact mul_le_mul_of_nonneg_left (by nlinarith) (by positivity)
    have c2 : 2 * (u * B) * (q * (q - 1)) ≤ q * B * (1 / 10) := by
      have : 2 * (u * B) * (q * (q - 1)) = q * B * (2 * ((q - 1) * u)) := by ring
      rw [this]
      exact mul_le_mul_of_nonneg_left (by nlinarith) (by positivity)
    have hab : |a + b| ≤ 2 * ((p + q) * B) := by
      rw [abs_le] at *
      constructor <;> nlinarith
    have hB2 : B ≤ 2 * ((p + q) * B) := by nlinarith
    have e3 := h.abs_err hu hab (hm.trans hB2) (by linarith)
    have hpq : p + q ≤ 2 * (p * q) := by nlinarith
    have hub : 0 ≤ u * B := by positivity
    have hk : u * (2 * ((p + q) * B)) ≤ 2 * (u * B) * (2 * (p * q)) := by nlinarith
    rw [List.sum_append]
    have : 2 * (u * B) * ((p + q) * (p + q - 1)) = 2 * (u * B) * (p * (p - 1)) + 2 * (u * B) * (q * (q - 1)) + 2 * (u * B) * (2 * (p * q)) := by ring
    rw [this]
    rw [abs_le] at *
    constructor <;> linarith
  | perm hp _ ih =>
    rw [← hp.length_eq] at hn hX ⊢
    rw [← hp.sum_eq]
    exact ih (fun x hx => hl x (hp.mem_iff.1 hx)) hn hX

/-- `d * a / b` for whole numbers `a` and `b`, with every operation rounded. -/
theorem mulDiv_err (h : Rounds u m X fl) (hu : 0 ≤ u) (hu' : u ≤ 1 / 1000) {d D A : ℝ} {a b : ℕ} (hd : |d| ≤ D) (hmD : m ≤ D) (hm : m ≤ 1) (hb : 1 ≤ b)
    (hab : (a : ℝ) ≤ b * A) (hA : 1 ≤ A) (hX1 : 2 * (D * a) ≤ X) (hX2 : 2 * (D * A) ≤ X) (haX : (a : ℝ) ≤ X) (hbX : (b : ℝ) ≤ X) :
    |fl (fl (d * fl a) / fl b) - d * a / b| ≤ 5 * (u * (D * A)) := by
  have hD0 : 0 ≤ D := (abs_nonneg _).trans hd
  have hA0 : 0 ≤ A := by linarith
  have hnn : 0 ≤ 5 * (u * (D * A)) := by positivity
  rcases Nat.eq_zero_or_pos a with rfl | ha
  · simpa [h.zero] using hnn
  have ha1 : (1 : ℝ) ≤ a := by exact_mod_cast ha
  have hb1 : (1 : ℝ) ≤ b := by exact_mod_cast hb
  have ea := flNat_err h hu hm haX
  have eb := flNat_err h hu hm hbX
  generalize fl (a : ℝ) = a' at *
  generalize fl (b : ℝ) = b' at *
  generalize (a : ℝ) = a at *
  generalize (b : ℝ) = b at *
  have ha' : |a'| ≤ 1001 / 1000 * a := by
    rw [abs_le] at *
    constructor <;> nlinarith
  have hp0 : |d * a'| ≤ 1001 / 1000 * (D * a) := by
    rw [abs_mul]
    calc |d| * |a'| ≤ D * (1001 / 1000 * a) := mul_le_mul hd ha' (abs_nonneg _) hD0
      _ = _ := by ring
  have hDa : D ≤ D * a := by nlinarith
  have ep := h.abs_err hu hp0 (by nlinarith) (by nlinarith)
  generalize fl (d * a') = p at *
  have hda : |d * a' - d * a| ≤ u * (D * a) := by
    rw [← mul_sub, abs_mul]
    calc |d| * |a' - a| ≤ D * (u * a) := mul_le_mul hd ea (abs_nonneg _) hD0
      _ = _ := by ring
  have hDa0 : 0 ≤ D * a := by positivity
  have huZ : 0 ≤ u * (D * a) := by positivity
  have huZ' : u * (D * a) ≤ D * a / 1000 := by nlinarith
  have hpe : |p - d * a| ≤ 2.001 * (u * (D * a)) := by
    rw [abs_le] at *
    constructor <;> linarith
  have hda2 : |d * a| ≤ D * a := by
    rw [abs_mul, abs_of_nonneg (by linarith : (0 : ℝ) ≤ a)]
    exact mul_le_mul_of_nonneg_right hd (by linarith)
  have hpb : |p| ≤ 1.003 * (D * a) := by
    rw [abs_le] at *
    constructor <;> linarith
  have hub : u * b ≤ b / 1000 := by nlinarith
  have hb' : 0.999 * b ≤ b' := by
    rw [abs_le] at eb
    linarith
  have hbpos : 0 < b := by linarith
  have hb'pos : 0 < b' := by linarith
  have h2 : D * a ≤ D * A * b := by
    calc D * a ≤ D * (b * A) := mul_le_mul_of_nonneg_left hab hD0
      _ = _ := by ring
  have hDA0 : 0 ≤ D * A := by positivity
  have hWb : D * A * (0.999 * b) ≤ D * A * b' := mul_le_mul_of_nonneg_left hb' hDA0
  have hq1 : |p / b'| ≤ 1.01 * (D * A) := by
    rw [abs_div, abs_of_pos hb'pos, div_le_iff₀ hb'pos]
    linarith
  have hmid : |p / b' - p / b| ≤ 1.01 * (u * (D * A)) := by
    have : p / b' - p / b = p / b' * ((b - b') / b) := by field_simp
    rw [this, abs_mul, abs_div (b - b'), abs_of_pos hbpos, abs_sub_comm b b']
    have h1 : |b' - b| / b ≤ u := by rwa [div_le_iff₀ hbpos]
    calc |p / b'| * (|b' - b| / b) ≤ 1.01 * (D * A) * u := mul_le_mul hq1 h1 (by positivity) (by positivity)
      _ = _ := by ring
  have hlast : |p / b - d * a / b| ≤ 2.001 * (u * (D * A)) := by
    rw [← sub_div, abs_div, abs_of_pos hbpos, div_le_iff₀ hbpos]
    have := mul_le_mul_of_nonneg_left h2 hu
    linarith
  have hDAD : D ≤ D * A := by nlinarith
  have eq := h.abs_err hu hq1 (by linarith) (by linarith)
  have hw : 0 ≤ u * (D * A) := by positivity
  have t1 := abs_add_le (fl (p / b') - p / b' + (p / b' - p / b)) (p / b - d * a / b)
  have t2 := abs_add_le (fl (p / b') - p / b') (p / b' - p / b)
  have e : fl (p / b') - d * a / b = fl (p / b') - p / b' + (p / b' - p / b) + (p / b - d * a / b) := by ring
  rw [e]
  linarith

end Bounds

end Verif.PanSharp
