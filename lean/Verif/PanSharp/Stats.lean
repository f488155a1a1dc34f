import Verif.PanSharp.Model
import Verif.Tiles.Props
import Mathlib.Algebra.BigOperators.Group.Finset.Basic
import Mathlib.Algebra.BigOperators.Ring.Finset
import Mathlib.Algebra.BigOperators.Field
import Mathlib.Algebra.CharZero.Defs
import Mathlib.Tactic.LinearCombination

/-!
# C47: statistics found tile by tile equal the statistics of the whole image
-/

set_option autoImplicit false
set_option linter.unusedSectionVars false

namespace Verif.PanSharp
open Verif.Tiles Verif.Ortho

variable {K : Type} [Field K] [DecidableEq K]

/-! ## Specification -/

/-- Mean of variable `i` over a set of samples. -/
def batchMean {ι : Type} (P : Finset ι) (v : ι → ℕ → K) (i : ℕ) : K := (∑ p ∈ P, v p i) / P.card

/-- Sum of products of deviations from the mean. -/
def batchDev {ι : Type} (P : Finset ι) (v : ι → ℕ → K) (i j : ℕ) : K :=
  ∑ p ∈ P, (v p i - batchMean P v i) * (v p j - batchMean P v j)

/-- Unbiased covariance of variables `i` and `j`. -/
def batchCov {ι : Type} (P : Finset ι) (v : ι → ℕ → K) (i j : ℕ) : K := batchDev P v i j / (P.card - 1)

/-- A pixel where pan and all MS bands have values. -/
def Images.Valid (im : Images K) (p : ℕ × ℕ) : Prop :=
  im.pan p.1 p.2 ≠ none ∧ ∀ b < im.n, im.ms b p.1 p.2 ≠ none

instance (im : Images K) (p : ℕ × ℕ) : Decidable (im.Valid p) := by unfold Images.Valid; infer_instance

/-- All valid pixels of an image of the given size. -/
def Images.validPix (im : Images K) (height width : ℕ) : Finset (ℕ × ℕ) :=
  ((Finset.range height) ×ˢ (Finset.range width)).filter fun p => im.Valid p

/-! ## Proof -/

theorem nanEquals_none (a : Pix K) : nanEquals a none = a.isNone := by
  unfold nanEquals pyEq
  cases a <;> simp

theorem mask_iff (im : Images K) (r c : ℕ) : im.mask r c = true ↔ im.Valid (r, c) := by
  simp only [Images.mask, nanEquals_none, Images.Valid, Bool.and_eq_true, List.all_eq_true, List.mem_range,
    Bool.not_eq_true', Option.isNone_eq_false_iff, Option.isSome_iff_ne_none]

theorem mem_tilePix {im : Images K} {w : Win} {p : ℕ × ℕ} :
    p ∈ im.tilePix w ↔ w.Has p.1 p.2 ∧ im.Valid p := by
  simp only [Images.tilePix, List.mem_flatMap, List.mem_filterMap, List.mem_range, Win.Has]
  constructor
  · rintro ⟨r, hr, c, hc, h⟩
    split at h
    · rename_i hm
      simp only [Option.some.injEq] at h
      subst h
      exact ⟨by simp only; omega, (mask_iff ..).1 hm⟩
    · cases h
  · rintro ⟨⟨h1, h2, h3, h4⟩, hv⟩
    refine ⟨p.1 - w.rowOff, by omega, p.2 - w.colOff, by omega, ?_⟩
    have e1 : w.rowOff + (p.1 - w.rowOff) = p.1 := by omega
    have e2 : w.colOff + (p.2 - w.colOff) = p.2 := by omega
    rw [e1, e2, if_pos ((mask_iff im p.1 p.2).2 hv)]

theorem tilePix_nodup (im : Images K) (w : Win) : (im.tilePix w).Nodup := by
  unfold Images.tilePix
  rw [List.nodup_flatMap]
  constructor
  · intro r _
    refine List.Nodup.filterMap ?_ List.nodup_range
    intro a b p ha hb
    simp only [Option.mem_def] at ha hb
    split at ha <;> split at hb <;> simp_all
    have := ha.trans hb.symm
    simp only [Prod.mk.injEq, true_and] at this
    omega
  · refine List.Nodup.pairwise_of_forall_ne List.nodup_range ?_
    intro a _ b _ hab
    simp only [Function.onFun]
    rw [List.disjoint_left]
    intro p hp hq
    simp only [List.mem_filterMap] at hp hq
    obtain ⟨c, _, hc⟩ := hp
    obtain ⟨d, _, hd⟩ := hq
    split at hc <;> split at hd <;> simp_all
    have := hc.trans hd.symm
    simp only [Prod.mk.injEq] at this
    omega

theorem tiles_perm (im : Images K) {H W : ℕ} {ws order : List Win} (ht : Tiling H W ws) (ho : order.Perm ws) :
    (order.flatMap im.tilePix).Perm (im.validPix H W).toList := by
  rw [List.perm_iff_count]
  intro p
  have h1 : (order.flatMap im.tilePix).count p = (ws.flatMap im.tilePix).count p :=
    (List.Perm.flatMap_right _ ho).count_eq p
  have h2 : ∀ l : List Win, (l.flatMap im.tilePix).count p =
      if im.Valid p then l.countP (fun w => decide (w.Has p.1 p.2)) else 0 := by
    intro l
    induction l with
    | nil => simp
    | cons w l ih =>
      rw [List.flatMap_cons, List.count_append, ih, (tilePix_nodup im w).count, List.countP_cons]
      simp only [mem_tilePix]
      by_cases hv : im.Valid p <;> by_cases hw : w.Has p.1 p.2 <;> simp [hv, hw, Nat.add_comm]
  rw [h1, h2, (Finset.nodup_toList _).count]
  simp only [Finset.mem_toList, Images.validPix, Finset.mem_filter, Finset.mem_product, Finset.mem_range]
  by_cases hv : im.Valid p
  · by_cases hin : p.1 < H ∧ p.2 < W
    · simp [hv, hin, ht.once p.1 hin.1 p.2 hin.2]
    · simp only [hv, hin, if_true, false_and, if_false, List.countP_eq_zero, decide_eq_true_eq]
      intro w hw hh
      have := ht.inside w hw
      unfold Win.Has at hh
      omega
  · simp [hv]

variable [CharZero K]

theorem tileStats_mean (l : List (ℕ → K)) (i : ℕ) : (tileStats l).means i = (l.map fun v => v i).sum / l.length := by
  unfold tileStats
  simp only
  split
  · rfl
  · have : l = [] := List.eq_nil_of_length_eq_zero (by omega)
    simp [this]

theorem sum_dev (l : List (ℕ → K)) (i j : ℕ) (a b : K) :
    (l.map fun v => (v i - a) * (v j - b)).sum =
      (l.map fun v => v i * v j).sum - a * (l.map fun v => v j).sum - b * (l.map fun v => v i).sum
        + l.length * (a * b) := by
  induction l with
  | nil => simp
  | cons v l ih =>
    simp only [List.map_cons, List.sum_cons, List.length_cons, ih]
    push_cast
    ring

theorem tileStats_prod (l : List (ℕ → K)) (i j : ℕ) :
    (tileStats l).prod i j = (l.map fun v => v i * v j).sum -
      (l.map fun v => v i).sum * (l.map fun v => v j).sum / l.length := by
  have h : (tileStats l).prod i j = (l.map fun v => (v i - (tileStats l).means i) * (v j - (tileStats l).means j)).sum :=
    rfl
  rw [h, sum_dev, tileStats_mean, tileStats_mean]
  by_cases hl : l.length = 0
  · have : l = [] := List.eq_nil_of_length_eq_zero hl
    simp [this]
  · have hn : (l.length : K) ≠ 0 := Nat.cast_ne_zero.2 hl
    field_simp
    ring

@[ext] theorem Agg.ext' {s t : Agg K} (h1 : s.n = t.n) (h2 : ∀ i, s.means i = t.means i)
    (h3 : ∀ i j, s.prod i j = t.prod i j) : s = t := by
  cases s; cases t
  simp only at h1 h2 h3
  subst h1
  congr 1
  · exact funext h2
  · exact funext fun i => funext fun j => h3 i j

/-- Merging the statistics of two groups of samples gives the statistics of all samples. -/
theorem add_tileStats (l m : List (ℕ → K)) : (tileStats l).add (tileStats m) = tileStats (l ++ m) := by
  unfold Agg.add
  have e : ∀ l : List (ℕ → K), (tileStats l).n = l.length := fun _ => rfl
  split
  · rename_i hm
    rw [e] at hm
    have hn : (m.length : K) ≠ 0 := Nat.cast_ne_zero.2 (by omega)
    have hs : ((l.length + m.length : ℕ) : K) ≠ 0 := Nat.cast_ne_zero.2 (by omega)
    ext i j
    · simp [e]
    · simp only [tileStats_mean, e, List.map_append, List.sum_append, List.length_append]
      by_cases hl : l.length = 0
      · have : l = [] := List.eq_nil_of_length_eq_zero hl
        subst this
        simp
        field_simp
      · have hl' : (l.length : K) ≠ 0 := Nat.cast_ne_zero.2 hl
        push_cast at hs ⊢
        field_simp
        ring
    · rename_i i j
      simp only [tileStats_mean, tileStats_prod, e, List.map_append, List.sum_append, List.length_append]
      by_cases hl : l.length = 0
      · have : l = [] := List.eq_nil_of_length_eq_zero hl
        subst this
        simp
      · have hl' : (l.length : K) ≠ 0 := Nat.cast_ne_zero.2 hl
        push_cast at hs ⊢
        field_simp
        ring
  · rename_i hm
    rw [e] at hm
    have : m = [] := List.eq_nil_of_length_eq_zero (by omega)
    simp [this]

theorem aggregate_eq (im : Images K) (order : List Win) :
    im.aggregate order = tileStats ((order.flatMap im.tilePix).map im.vec) := by
  have key : ∀ (l : List Win) (m : List (ℕ → K)),
      l.foldl (fun s w => s.add (im.tileStats w)) (tileStats m) = tileStats (m ++ (l.flatMap im.tilePix).map im.vec) := by
    intro l
    induction l with
    | nil => intro m; simp
    | cons w l ih =>
      intro m
      rw [List.foldl_cons, Images.tileStats, add_tileStats, ih]
      simp [List.append_assoc]
  have h0 : (⟨0, fun _ => 0, fun _ _ => 0⟩ : Agg K) = tileStats [] := by
    ext <;> simp [tileStats]
  unfold Images.aggregate
  rw [h0, key, List.nil_append]

theorem tileStats_finset {ι : Type} (P : Finset ι) (f : ι → ℕ → K) (l : List ι) (h : l.Perm P.toList) :
    (tileStats (l.map f)).n = P.card ∧ (∀ i, (tileStats (l.map f)).means i = batchMean P f i) ∧
    ∀ i j, (tileStats (l.map f)).prod i j = batchDev P f i j := by
  have hs : ∀ g : ι → K, (l.map g).sum = ∑ p ∈ P, g p := by
    intro g
    rw [(h.map g).sum_eq, Finset.sum_map_toList]
  have hlen : l.length = P.card := by rw [h.length_eq, Finset.length_toList]
  have hm : ∀ i, (tileStats (l.map f)).means i = batchMean P f i := by
    intro i
    rw [tileStats_mean, batchMean, List.map_map, List.length_map, hlen, hs]
    rfl
  refine ⟨by simp [tileStats, hlen], hm, fun i j => ?_⟩
  have : (tileStats (l.map f)).prod i j = ((l.map f).map fun v => (v i - (tileStats (l.map f)).means i) *
    (v j - (tileStats (l.map f)).means j)).sum := rfl
  rw [this, hm, hm, List.map_map, hs]
  rfl

/-- C47: whatever the order in which tiles complete, and for every tiling by `block_windows`, the means are
the means over all pixels that are valid in pan and all MS bands, and with two or more such pixels the
covariances are the unbiased covariances over the same pixels. -/
theorem C47_streaming (im : Images K) (info : ImInfo) (bs : Option (ℕ × ℕ)) (ws order : List Win)
    (hw : blockWindows info bs = .ok ws) (ho : order.Perm ws) :
    let P := im.validPix info.height info.width
    (∀ i, (im.getStats order).1 i = batchMean P im.vec i) ∧
    (2 ≤ P.card → ∀ i j, (im.getStats order).2 i j = .val (batchCov P im.vec i j)) := by
  intro P
  have ht := C01_tiles_partition _ _ _ hw
  obtain ⟨h1, h2, h3⟩ := tileStats_finset P im.vec _ (tiles_perm im ht ho)
  unfold Images.getStats
  simp only [aggregate_eq]
  refine ⟨h2, fun hc i j => ?_⟩
  rw [h1, h3, Fl.val_div, if_neg]
  · rfl
  · rw [sub_eq_zero]
    norm_cast
    omega

/-- C47: statistics do not depend on the completion order or on the tile size. -/
theorem C47_order_independent (im : Images K) (info : ImInfo) (bs bs' : Option (ℕ × ℕ)) (ws ws' o o' : List Win)
    (hw : blockWindows info bs = .ok ws) (hw' : blockWindows info bs' = .ok ws') (ho : o.Perm ws)
    (ho' : o'.Perm ws') : im.getStats o = im.getStats o' := by
  have e : ∀ {bs ws o}, blockWindows info bs = .ok ws → o.Perm ws →
      im.aggregate o = tileStats ((im.validPix info.height info.width).toList.map im.vec) := by
    intro bs ws o hw ho
    have hp := tiles_perm im (C01_tiles_partition _ _ _ hw) ho
    obtain ⟨a1, a2, a3⟩ := tileStats_finset _ im.vec _ hp
    obtain ⟨b1, b2, b3⟩ := tileStats_finset _ im.vec _ (List.Perm.refl (im.validPix info.height info.width).toList)
    rw [aggregate_eq]
    exact Agg.ext' (a1.trans b1.symm) (fun i => (a2 i).trans (b2 i).symm) (fun i j => (a3 i j).trans (b3 i j).symm)
  unfold Images.getStats
  rw [e hw ho, e hw' ho']

/-- C47: with exactly one valid pixel the covariance is NaN; without valid pixels all means and covariances are
zero. -/
theorem C47_few_pixels (im : Images K) (info : ImInfo) (bs : Option (ℕ × ℕ)) (ws order : List Win)
    (hw : blockWindows info bs = .ok ws) (ho : order.Perm ws) :
    let P := im.validPix info.height info.width
    (P.card = 1 → ∀ i j, (im.getStats order).2 i j = .nan) ∧
    (P.card = 0 → ∀ i j, (im.getStats order).1 i = 0 ∧ (im.getStats order).2 i j = .val 0) := by
  intro P
  have ht := C01_tiles_partition _ _ _ hw
  obtain ⟨h1, h2, h3⟩ := tileStats_finset P im.vec _ (tiles_perm im ht ho)
  unfold Images.getStats
  simp only [aggregate_eq]
  refine ⟨fun hc i j => ?_, fun hc i j => ?_⟩
  · rw [h1, hc, Fl.val_div, if_pos (by simp)]
  · rw [h1, h2, h3, hc]
    have hP : P = ∅ := Finset.card_eq_zero.1 hc
    simp [hP, batchMean, batchDev, Fl.val_div]

/-- A 2 x 3 image with one pan pixel missing, read in four tiles, the last one first. -/
def demoImages : Images ℚ where
  n := 2
  pan r c := if r = 1 ∧ c = 2 then none else some (r + 2 * c)
  ms b r c := some (3 * r - c + b * c * c)

example : ∃ ws, blockWindows ⟨3, 2, false, none, (1, 2)⟩ none = .ok ws ∧ ws.reverse.Perm ws ∧
    (demoImages.validPix 2 3).card = 5 ∧ (demoImages.getStats ws.reverse).2 0 2 = .val 1 ∧
    (demoImages.getStats ws.reverse).1 0 = 2 :=
  ⟨_, rfl, List.reverse_perm _, by decide +kernel, by decide +kernel, by decide +kernel⟩

end Verif.PanSharp
