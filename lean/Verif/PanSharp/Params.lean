import Verif.PanSharp.Stats
import Verif.PanSharp.Props

/-!
# Validation of pan-sharpening parameters (C51), and the pixel values behind the statistics (C47)
-/

set_option autoImplicit false
set_option linter.unusedSectionVars false

namespace Verif.PanSharp
open Verif.Tiles Verif.Ortho

section
variable {K : Type} [Field K] [LinearOrder K] [IsStrictOrderedRing K]

/-- The MS bands that the user asks for: those given, or all bands that are not alpha bands, in order, when none are given. -/
def BandsFor (msCount : ℕ) (alpha : ℕ → Bool) (given : Option (List ℤ)) (ix : List ℤ) : Prop :=
  (∃ l, given = some l ∧ l ≠ [] ∧ ix = l) ∨
  ((given = none ∨ given = some []) ∧ ix.Pairwise (· < ·) ∧
    ∀ i, i ∈ ix ↔ 1 ≤ i ∧ i ≤ msCount ∧ alpha (i - 1).toNat = false)

theorem bandsFor_resolve (msCount : ℕ) (alpha : ℕ → Bool) (given : Option (List ℤ)) :
    BandsFor msCount alpha given (resolveIndexes msCount alpha given) := by
  have hd : (((List.range msCount).filter fun b => !alpha b).map fun b : ℕ => (b : ℤ) + 1).Pairwise (· < ·) := by
    rw [List.pairwise_map]
    refine (List.pairwise_lt_range.filter _).imp ?_
    intro a b h
    omega
  have hm : ∀ i : ℤ, i ∈ (((List.range msCount).filter fun b => !alpha b).map fun b : ℕ => (b : ℤ) + 1) ↔
      1 ≤ i ∧ i ≤ msCount ∧ alpha (i - 1).toNat = false := by
    intro i
    simp only [List.mem_map, List.mem_filter, List.mem_range, Bool.not_eq_true']
    constructor
    · rintro ⟨b, ⟨hb, ha⟩, rfl⟩
      refine ⟨by omega, by omega, ?_⟩
      rw [show ((b : ℤ) + 1 - 1).toNat = b by omega]
      exact ha
    · rintro ⟨h1, h2, ha⟩
      exact ⟨(i - 1).toNat, ⟨by omega, ha⟩, by omega⟩
  match given with
  | none => exact .inr ⟨.inl rfl, hd, hm⟩
  | some [] => exact .inr ⟨.inr rfl, hd, hm⟩
  | some (i :: l) => exact .inl ⟨_, rfl, by simp, rfl⟩

/-- Weights that the user asks for. -/
def WeightsFor (given : Option (List K)) (w : Option (List K)) : Prop :=
  (∃ l, given = some l ∧ l ≠ [] ∧ w = some l) ∨ ((given = none ∨ given = some []) ∧ w = none)

theorem bandsFor_unique {msCount : ℕ} {alpha : ℕ → Bool} {given : Option (List ℤ)} {a b : List ℤ}
    (ha : BandsFor msCount alpha given a) (hb : BandsFor msCount alpha given b) : a = b := by
  rcases ha with ⟨l, h1, h2, rfl⟩ | ⟨h1, h2, h3⟩ <;> rcases hb with ⟨l', h1', h2', rfl⟩ | ⟨h1', h2', h3'⟩
  · rw [h1] at h1'; exact Option.some.inj h1'
  · rcases h1' with h | h <;> rw [h1] at h
    · cases h
    · exact absurd (Option.some.inj h) h2
  · rcases h1 with h | h <;> rw [h1'] at h
    · cases h
    · exact absurd (Option.some.inj h) h2'
  · have hp : a.Perm b := (List.perm_ext_iff_of_nodup (h2.imp fun h => ne_of_lt h) (h2'.imp fun h => ne_of_lt h)).2
      fun i => (h3 i).trans (h3' i).symm
    exact hp.eq_of_pairwise (fun x y _ _ h h' => absurd h (lt_asymm h')) h2 h2'

theorem weightsFor_unique {given a b : Option (List K)} (ha : WeightsFor given a) (hb : WeightsFor given b) : a = b := by
  rcases ha with ⟨l, h1, h2, rfl⟩ | ⟨h1, rfl⟩ <;> rcases hb with ⟨l', h1', h2', rfl⟩ | ⟨h1', rfl⟩
  · rw [← h1, ← h1']
  · rcases h1' with h | h <;> rw [h1] at h
    · cases h
    · exact absurd (Option.some.inj h) h2
  · rcases h1 with h | h <;> rw [h1'] at h
    · cases h
    · exact absurd (Option.some.inj h) h2'
  · rfl

/-- C51: bands and weights are accepted exactly when the pan band and the MS bands are in their images and weights, if given,
are as many as the MS bands and not negative.  The bands and weights used are those asked for. -/
theorem C51_accepts (panCount msCount : ℕ) (alpha : ℕ → Bool) (panIndex : ℤ) (msIndexes : Option (List ℤ))
    (weights : Option (List K)) (ix : List ℤ) (w : Option (List K)) (hb : BandsFor msCount alpha msIndexes ix)
    (hw : WeightsFor weights w) :
    (validateParams panCount msCount alpha panIndex msIndexes weights = .ok (ix, w) ↔
      (1 ≤ panIndex ∧ panIndex ≤ panCount) ∧ (∀ i ∈ ix, 1 ≤ i ∧ i ≤ msCount) ∧
      ∀ l, w = some l → l.length = ix.length ∧ ∀ x ∈ l, 0 ≤ x) ∧
    (validateParams panCount msCount alpha panIndex msIndexes weights = .error .orthorityError ∨
      validateParams panCount msCount alpha panIndex msIndexes weights = .ok (ix, w)) := by
  have hix : resolveIndexes msCount alpha msIndexes = ix := bandsFor_unique (bandsFor_resolve _ _ _) hb
  have hany : (ix.any (fun i => decide (i ≤ 0)) || ix.any (fun i => decide (i > (msCount : ℤ)))) = true ↔
      ¬ ∀ i ∈ ix, 1 ≤ i ∧ i ≤ (msCount : ℤ) := by
    simp only [Bool.or_eq_true, List.any_eq_true, decide_eq_true_eq]
    constructor
    · rintro (⟨i, hi, h⟩ | ⟨i, hi, h⟩) hall
      · have := (hall i hi).1; omega
      · have := (hall i hi).2; omega
    · intro h
      push Not at h
      obtain ⟨i, hi, h⟩ := h
      by_cases h1 : 1 ≤ i
      · exact .inr ⟨i, hi, h h1⟩
      · exact .inl ⟨i, hi, by omega⟩
  obtain ⟨w', hw', hv, hve⟩ : ∃ w, WeightsFor weights w ∧ (validateWeights ix weights = .ok w ↔
      ∀ l, w = some l → l.length = ix.length ∧ ∀ x ∈ l, 0 ≤ x) ∧
      (validateWeights ix weights = .ok w ∨ validateWeights ix weights = .error .orthorityError) := by
    match weights with
    | none => exact ⟨none, .inr ⟨.inl rfl, rfl⟩, ⟨fun _ => by simp, fun _ => rfl⟩, .inl rfl⟩
    | some [] => exact ⟨none, .inr ⟨.inr rfl, rfl⟩, ⟨fun _ => by simp, fun _ => rfl⟩, .inl rfl⟩
    | some (x :: l) =>
      refine ⟨some (x :: l), .inl ⟨_, rfl, by simp, rfl⟩, ?_⟩
      simp only [validateWeights]
      by_cases h1 : (x :: l).length = ix.length
      · rw [if_neg (not_not.2 h1)]
        by_cases h2 : (x :: l).any (fun y => decide (y < 0)) = true
        · rw [if_pos h2]
          refine ⟨⟨fun h => (by cases h), fun h => ?_⟩, .inr rfl⟩
          obtain ⟨y, hy, hy0⟩ := List.any_eq_true.1 h2
          have := (h _ rfl).2 y hy
          simp only [decide_eq_true_eq] at hy0
          exact absurd this (not_le.2 hy0)
        · rw [if_neg h2]
          refine ⟨⟨fun _ l' h => ?_, fun _ => rfl⟩, .inl rfl⟩
          obtain rfl : x :: l = l' := Option.some.inj h
          refine ⟨h1, fun y hy => ?_⟩
          by_contra hy0
          exact h2 (List.any_eq_true.2 ⟨y, hy, by simpa using hy0⟩)
      · rw [if_pos h1]
        exact ⟨⟨fun h => (by cases h), fun h => absurd (h _ rfl).1 h1⟩, .inr rfl⟩
  obtain rfl := weightsFor_unique hw' hw
  have hpan : (panIndex ≤ 0 ∨ panIndex > (panCount : ℤ)) ↔ ¬ (1 ≤ panIndex ∧ panIndex ≤ (panCount : ℤ)) := by omega
  simp only [validateParams, hix]
  constructor
  · by_cases hp : 1 ≤ panIndex ∧ panIndex ≤ (panCount : ℤ)
    · rw [if_neg (fun h => hpan.1 h hp)]
      by_cases hi : ∀ i ∈ ix, 1 ≤ i ∧ i ≤ (msCount : ℤ)
      · rw [if_neg (fun h => hany.1 h hi)]
        rcases hve with h | h
        · rw [h]
          exact ⟨fun _ => ⟨hp, hi, hv.1 h⟩, fun _ => rfl⟩
        · rw [h]
          refine ⟨fun h' => (by cases h'), fun h' => ?_⟩
          rw [hv.2 h'.2.2] at h
          cases h
      · rw [if_pos (hany.2 hi)]
        exact ⟨fun h => (by cases h), fun h => absurd h.2.1 hi⟩
    · rw [if_pos (hpan.2 hp)]
      exact ⟨fun h => (by cases h), fun h => absurd h.1 hp⟩
  · split
    · exact .inl rfl
    · split
      · exact .inl rfl
      · rcases hve with h | h
        · rw [h]; exact .inr rfl
        · rw [h]; exact .inl rfl

/-- C51: of a four band image with alpha, the first three bands are used by default. -/
example : validateParams 1 4 (fun b => b == 3) 1 none (some [1, 2, (3 : ℚ)]) = .ok ([1, 2, 3], some [1, 2, 3]) := by
  decide +kernel

/-- C51: band zero, a band too many and too few weights are refused. -/
example : validateParams (K := ℚ) 1 4 (fun _ => false) 0 none none = .error .orthorityError ∧
    validateParams (K := ℚ) 1 4 (fun _ => false) 1 (some [5]) none = .error .orthorityError ∧
    validateParams (K := ℚ) 1 4 (fun _ => false) 1 (some [1, 2]) (some [1]) = .error .orthorityError := by
  decide +kernel

end

section
variable {K : Type} [Field K] [DecidableEq K]

/-- C47: the values behind the statistics are those of the images: at a valid pixel, the first is the pan value and the
following ones those of the MS bands in order. -/
theorem C47_values (im : Images K) (p : ℕ × ℕ) (h : im.Valid p) :
    im.pan p.1 p.2 = some (im.vec p 0) ∧ ∀ b < im.n, im.ms b p.1 p.2 = some (im.vec p (b + 1)) := by
  obtain ⟨h1, h2⟩ := h
  constructor
  · obtain ⟨x, hx⟩ := Option.ne_none_iff_exists'.1 h1
    simp [Images.vec, hx]
  · intro b hb
    obtain ⟨x, hx⟩ := Option.ne_none_iff_exists'.1 (h2 b hb)
    simp [Images.vec, hx]

end

end Verif.PanSharp
