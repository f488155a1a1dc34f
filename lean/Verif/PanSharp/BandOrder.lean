import Verif.PanSharp.Radiometry
import Mathlib.Data.List.NodupEquivFin

/-!
# C127: order of the MS bands
-/

set_option autoImplicit false
set_option linter.unusedSectionVars false

namespace Verif.PanProcess

open Verif.PanSharp Verif.Common Verif.Tiles Verif.Files
open Verif.Ortho (Pix)
open Verif.OrthoProcess (Names OptsOk ProfileOk CanOpen profile_ok)

variable {C : Type}

/-! ## Specification -/

/-- `l'` has the `n` items of `l` in another order: item `b` of `l'` is item `σ b` of `l`. -/
structure Shuffled {α : Type} [Zero α] (σ : Equiv.Perm ℕ) (n : ℕ) (l l' : List α) : Prop where
  length : l.length = n
  length' : l'.length = n
  item : ∀ b < n, l'.getD b 0 = l.getD (σ b) 0

/-- No weights are given in both calls, or the weights of the second are those of the first in the other order. -/
def GivenShuffled (σ : Equiv.Perm ℕ) (n : ℕ) : Option (List ℝ) → Option (List ℝ) → Prop
  | none, none => True
  | some l, some l' => Shuffled σ n l l'
  | _, _ => False

/-- What is assumed of `np.linalg.lstsq` here: the result has one number for each unknown, and that of an unknown does not depend on the order of the unknowns and
equations.  `idx` and `idx'` are the same unknowns in two orders; `A i j` and `d j` are the coefficients and right sides. -/
structure OrderFree (ls : List (List ℝ) → List ℝ → List ℝ) : Prop where
  length : ∀ A b, (ls A b).length = b.length
  item : ∀ (A : ℕ → ℕ → ℝ) (d : ℕ → ℝ) (idx idx' : List ℕ), idx.Nodup → idx'.Perm idx → ∀ (k k' : ℕ) (hk : k < idx.length) (hk' : k' < idx'.length),
    idx[k] = idx'[k'] →
    (ls (idx.map fun i => idx.map fun j => A i j) (idx.map d)).getD k 0 = (ls (idx'.map fun i => idx'.map fun j => A i j) (idx'.map d)).getD k' 0

/-! ## Lemmas: weights -/

section Weights
variable {σ : Equiv.Perm ℕ} {n : ℕ}

theorem getD_lt {α : Type} [Zero α] (l : List α) {i : ℕ} (h : i < l.length) : l.getD i 0 = l[i] := by
  simp [List.getD_eq_getElem?_getD, h]

theorem perm_lt (hσ : ∀ b, n ≤ b → σ b = b) (b : ℕ) : σ b < n ↔ b < n := by
  constructor
  · intro h
    by_contra hb
    rw [hσ b (by omega)] at h
    exact hb h
  · intro h
    by_contra hb
    have := hσ (σ b) (by omega)
    have := σ.injective this
    omega

theorem perm_sum (hσ : ∀ b, n ≤ b → σ b = b) (f : ℕ → ℝ) : ∑ b ∈ Finset.range n, f (σ b) = ∑ b ∈ Finset.range n, f b :=
  Finset.sum_equiv σ (fun b => by rw [Finset.mem_range, Finset.mem_range, perm_lt hσ]) fun _ _ => rfl

theorem list_sum {l : List ℝ} (h : l.length = n) : l.sum = ∑ b ∈ Finset.range n, l.getD b 0 := by
  subst h
  induction l with
  | nil => rfl
  | cons x l ih =>
    rw [List.sum_cons, List.length_cons, Finset.sum_range_succ', ih]
    simp [add_comm]

theorem Shuffled.sum {l l' : List ℝ} (hσ : ∀ b, n ≤ b → σ b = b) (h : Shuffled σ n l l') : l'.sum = l.sum := by
  rw [list_sum h.length', list_sum h.length, ← perm_sum hσ (fun b => l.getD b 0)]
  exact Finset.sum_congr rfl fun b hb => h.item b (Finset.mem_range.1 hb)

theorem all_getD {l : List ℝ} (h : l.length = n) (q : ℝ → Prop) : (∀ x ∈ l, q x) ↔ ∀ b < n, q (l.getD b 0) := by
  subst h
  constructor
  · intro h b hb
    rw [getD_lt _ hb]
    exact h _ (List.getElem_mem _)
  · intro h x hx
    obtain ⟨b, hb, rfl⟩ := List.getElem_of_mem hx
    rw [← getD_lt _ hb]
    exact h b hb

theorem Shuffled.all {l l' : List ℝ} (hσ : ∀ b, n ≤ b → σ b = b) (h : Shuffled σ n l l') (q : ℝ → Prop) : (∀ x ∈ l', q x) ↔ ∀ x ∈ l, q x := by
  rw [all_getD h.length', all_getD h.length]
  constructor
  · intro h1 b hb
    have := h1 (σ.symm b) ((perm_lt hσ _).1 (by simpa using hb))
    rw [h.item _ ((perm_lt hσ _).1 (by simpa using hb))] at this
    simpa using this
  · intro h1 b hb
    rw [h.item b hb]
    exact h1 _ ((perm_lt hσ b).2 hb)

theorem Shuffled.any {l l' : List ℝ} (hσ : ∀ b, n ≤ b → σ b = b) (h : Shuffled σ n l l') :
    l'.any (fun x => decide (x < 0)) = l.any (fun x => decide (x < 0)) := by
  have e := not_congr (h.all hσ fun x => ¬ x < 0)
  push Not at e
  rw [Bool.eq_iff_iff]
  simpa using e

theorem Shuffled.map {l l' : List ℝ} (hσ : ∀ b, n ≤ b → σ b = b) (h : Shuffled σ n l l') (f : ℝ → ℝ) : Shuffled σ n (l.map f) (l'.map f) := by
  refine ⟨by simp [h.length], by simp [h.length'], fun b hb => ?_⟩
  have h1 : b < l'.length := by rw [h.length']; exact hb
  have h2 : σ b < l.length := by rw [h.length, perm_lt hσ]; exact hb
  have := h.item b hb
  rw [getD_lt _ h1, getD_lt _ h2] at this
  rw [getD_lt _ (by simpa using h1), getD_lt _ (by simpa using h2), List.getElem_map, List.getElem_map, this]

/-- Covariances of the bands in the other order. -/
def shuffle (σ : Equiv.Perm ℕ) : ℕ → ℕ
  | 0 => 0
  | b + 1 => σ b + 1

theorem shuffle_inj (σ : Equiv.Perm ℕ) : Function.Injective (shuffle σ) := by
  intro a b h
  cases a <;> cases b <;> simp [shuffle] at h
  · rfl
  · rw [h]

variable {ls : List (List ℝ) → List ℝ → List ℝ} {cov cov' : ℕ → ℕ → ℝ}

theorem lsWeights_shuffle (hcov : ∀ i j, cov' i j = cov (shuffle σ i) (shuffle σ j)) (idx : List ℕ) :
    lsWeights ls cov' idx = lsWeights ls cov (idx.map (shuffle σ)) := by
  unfold lsWeights
  simp only [List.map_map, hcov]
  rfl

/-- Weights of the same bands, in two orders. -/
theorem lsWeights_item (hls : OrderFree ls) {idx idx' : List ℕ} (hn : idx.Nodup) (hp : idx'.Perm idx) {k k' : ℕ} (hk : k < idx.length)
    (hk' : k' < idx'.length) (h : idx[k] = idx'[k']) : (lsWeights ls cov idx).getD k 0 = (lsWeights ls cov idx').getD k' 0 :=
  hls.item cov (cov 0) idx idx' hn hp k k' hk hk' h

theorem lsWeights_length (hls : OrderFree ls) (idx : List ℕ) : (lsWeights ls cov idx).length = idx.length := by
  simp [lsWeights, hls.length]

/-- Bands of `range n` with a property, in two orders. -/
theorem filter_perm (hσ : ∀ b, n ≤ b → σ b = b) (q q' : ℕ → Bool) (h : ∀ b < n, q' b = q (σ b)) :
    ((((List.range n).filter q').map fun b => b + 1).map (shuffle σ)).Perm (((List.range n).filter q).map fun b => b + 1) := by
  rw [List.perm_ext_iff_of_nodup]
  · intro k
    simp only [List.mem_map, List.mem_filter, List.mem_range]
    constructor
    · rintro ⟨-, ⟨b, ⟨hb, hq⟩, rfl⟩, rfl⟩
      exact ⟨σ b, ⟨(perm_lt hσ b).2 hb, by rw [← h b hb]; exact hq⟩, rfl⟩
    · rintro ⟨b, ⟨hb, hq⟩, rfl⟩
      have hs : σ.symm b < n := (perm_lt hσ _).1 (by simpa using hb)
      exact ⟨_, ⟨σ.symm b, ⟨hs, by rw [h _ hs]; simpa using hq⟩, rfl⟩, by simp [shuffle]⟩
  · exact ((List.nodup_range.filter _).map (fun a b h => by simpa using h)).map (shuffle_inj σ)
  · exact (List.nodup_range.filter _).map (fun a b h => by simpa using h)

theorem idxOf_some {l : List ℕ} {x k : ℕ} (h : l.idxOf? x = some k) : ∃ hk : k < l.length, l[k] = x := by
  have := List.idxOf?_eq_some_iff.1 h
  exact ⟨this.1, by simpa using this.2.1⟩

theorem all_shuffled (hls : OrderFree ls) {idx idx' : List ℕ} (hn : idx.Nodup) (hp : idx'.Perm idx) :
    (lsWeights ls cov idx').all (fun x => decide (0 ≤ x)) = (lsWeights ls cov idx).all (fun x => decide (0 ≤ x)) := by
  rw [Bool.eq_iff_iff]
  simp only [List.all_eq_true, decide_eq_true_eq]
  rw [all_getD (lsWeights_length hls idx') (fun x => 0 ≤ x), all_getD (lsWeights_length hls idx) (fun x => 0 ≤ x)]
  constructor
  · intro h k hk
    obtain ⟨k', hk', e⟩ := List.getElem_of_mem (hp.mem_iff.2 (List.getElem_mem hk))
    rw [lsWeights_item hls hn hp hk hk' e.symm]
    exact h k' hk'
  · intro h k' hk'
    obtain ⟨k, hk, e⟩ := List.getElem_of_mem (hp.mem_iff.1 (List.getElem_mem hk'))
    rw [← lsWeights_item hls hn hp hk hk' e]
    exact h k hk

theorem range_shuffled (hσ : ∀ b, n ≤ b → σ b = b) : ((List.range' 1 n).map (shuffle σ)).Perm (List.range' 1 n) := by
  have h := filter_perm (n := n) hσ (fun _ => true) (fun _ => true) (fun _ _ => rfl)
  have e : List.range' 1 n = (List.range n).map fun b => b + 1 := by
    rw [List.range'_eq_map_range]
    simp only [Nat.add_comm]
  simpa [e] using h

theorem estimate_shuffled (hls : OrderFree ls) (hσ : ∀ b, n ≤ b → σ b = b) (hcov : ∀ i j, cov' i j = cov (shuffle σ i) (shuffle σ j)) :
    Shuffled σ n (lsWeights ls cov (List.range' 1 n)) (lsWeights ls cov' (List.range' 1 n)) := by
  refine ⟨by simp [lsWeights_length hls], by simp [lsWeights_length hls], fun b hb => ?_⟩
  rw [lsWeights_shuffle hcov]
  have hb' := (perm_lt hσ b).2 hb
  refine (lsWeights_item hls List.nodup_range' (range_shuffled hσ) (by simpa using hb') (by simpa using hb) ?_).symm
  simp [shuffle, Nat.add_comm]

theorem reestimate_shuffled (hls : OrderFree ls) (hσ : ∀ b, n ≤ b → σ b = b) (hcov : ∀ i j, cov' i j = cov (shuffle σ i) (shuffle σ j))
    {w w' : List ℝ} (hw : Shuffled σ n w w') : Shuffled σ n (reestimate ls n cov w) (reestimate ls n cov' w') := by
  unfold reestimate
  simp only
  have hp := filter_perm (n := n) hσ (fun b => decide (0 < w.getD b 0)) (fun b => decide (0 < w'.getD b 0)) (fun b hb => by rw [hw.item b hb])
  have hn : (((List.range n).filter fun b => decide (0 < w.getD b 0)).map fun b => b + 1).Nodup :=
    (List.nodup_range.filter _).map (fun a b h => by simpa using h)
  set idx := ((List.range n).filter fun b => decide (0 < w.getD b 0)).map fun b => b + 1
  set idx' := ((List.range n).filter fun b => decide (0 < w'.getD b 0)).map fun b => b + 1
  rw [lsWeights_shuffle hcov, all_shuffled hls hn hp]
  split_ifs with h
  · refine ⟨by simp, by simp, fun b hb => ?_⟩
    have hb' := (perm_lt hσ b).2 hb
    rw [getD_lt _ (by simpa using hb), getD_lt _ (by simpa using hb'), List.getElem_map, List.getElem_map,
      List.getElem_range, List.getElem_range]
    have hmem : b + 1 ∈ idx' ↔ σ b + 1 ∈ idx := by
      rw [← hp.mem_iff]
      constructor
      · intro h; exact List.mem_map.2 ⟨_, h, rfl⟩
      · intro h
        obtain ⟨c, hc, e⟩ := List.mem_map.1 h
        have : c = b + 1 := shuffle_inj σ e
        rwa [← this]
    cases h1 : idx'.idxOf? (b + 1) with
    | none =>
      have h2 : idx.idxOf? (σ b + 1) = none := by
        rw [List.idxOf?_eq_none_iff] at h1 ⊢
        rw [← hmem]; exact h1
      simp only [h2, hw.item b hb]
    | some k' =>
      cases h2 : idx.idxOf? (σ b + 1) with
      | none =>
        rw [List.idxOf?_eq_none_iff, ← hmem] at h2
        obtain ⟨hk, e⟩ := idxOf_some h1
        exact absurd (e ▸ List.getElem_mem hk) h2
      | some k =>
        obtain ⟨hk', e'⟩ := idxOf_some h1
        obtain ⟨hk, e⟩ := idxOf_some h2
        refine (lsWeights_item hls hn hp hk (by simpa using hk') ?_).symm
        rw [e]
        rw [List.getElem_map, e']
        rfl
  · exact hw

theorem getWeights_shuffled (hls : OrderFree ls) (hσ : ∀ b, n ≤ b → σ b = b) (hcov : ∀ i j, cov' i j = cov (shuffle σ i) (shuffle σ j))
    {w w' : Option (List ℝ)} (hw : GivenShuffled σ n w w') {wl wl' : List (Fl ℝ)} (h : getWeights ls n cov w = .ok wl)
    (h' : getWeights ls n cov' w' = .ok wl') :
    (∀ b < n, wl'.getD b 0 = wl.getD (σ b) 0) ∧
    ((∃ u : ℕ → ℝ, (∀ b < n, wl.getD b 0 = .val (u b)) ∧ ∑ b ∈ Finset.range n, u b = 1) ∨ ∀ b < n, wl.getD b 0 = .nan) := by
  have hclip : ∀ l l' : List ℝ, Shuffled σ n l l' → Shuffled σ n (if l.any (fun x => decide (x < 0)) then l.map (max · 0) else l)
      (if l'.any (fun x => decide (x < 0)) then l'.map (max · 0) else l') := by
    intro l l' hl
    rw [hl.any hσ]
    split_ifs
    · exact hl.map hσ _
    · exact hl
  have key : ∃ r r', rawWeights ls n cov w = .ok r ∧ rawWeights ls n cov' w' = .ok r' ∧ Shuffled σ n r r' := by
    cases w with
    | some l =>
      cases w' with
      | none => exact hw.elim
      | some l' => exact ⟨_, _, rfl, rfl, hclip l l' hw⟩
    | none =>
      cases w' with
      | some l' => exact hw.elim
      | none =>
        have he := estimate_shuffled hls hσ hcov
        have ha := he.any hσ
        by_cases h1 : (lsWeights ls cov (List.range' 1 n)).any (fun x => decide (x < 0)) = true
        · by_cases h2 : n = 1
          · have e : rawWeights ls n cov none = .error .typeError := by
              show (if _ then (if n = 1 then _ else _) else _) = _
              rw [if_pos h1, if_pos h2]
            rw [getWeights, e] at h
            cases h
          · refine ⟨_, _, ?_, ?_, hclip _ _ (reestimate_shuffled hls hσ hcov he)⟩
            · show (if _ then (if n = 1 then _ else _) else _) = _
              rw [if_pos h1, if_neg h2]
            · show (if _ then (if n = 1 then _ else _) else _) = _
              rw [if_pos (ha.trans h1), if_neg h2]
        · refine ⟨_, _, ?_, ?_, hclip _ _ he⟩
          · show (if _ then (if n = 1 then _ else _) else _) = _
            rw [if_neg h1]
          · show (if _ then (if n = 1 then _ else _) else _) = _
            rw [if_neg (by rw [ha]; exact h1)]
  obtain ⟨r, r', hr, hr', hs⟩ := key
  unfold getWeights at h h'
  rw [hr] at h
  rw [hr'] at h'
  obtain rfl := Except.ok.inj h
  obtain rfl := Except.ok.inj h'
  constructor
  · intro b hb
    have h1 : b < r'.length := by rw [hs.length']; exact hb
    have h2 : σ b < r.length := by rw [hs.length, perm_lt hσ]; exact hb
    have e := hs.item b hb
    rw [getD_lt _ h1, getD_lt _ h2] at e
    rw [getD_lt _ (by simpa using h1), getD_lt _ (by simpa using h2), List.getElem_map, List.getElem_map, e, hs.sum hσ]
  · have e : ∀ b < n, (r.map fun x => Fl.val x / Fl.val r.sum).getD b 0 = Fl.val (r.getD b 0) / Fl.val r.sum := by
      intro b hb
      have h1 : b < r.length := by rw [hs.length]; exact hb
      rw [getD_lt _ (by simpa using h1), getD_lt _ h1, List.getElem_map]
    by_cases h0 : r.sum = 0
    · right
      intro b hb
      rw [e b hb, Fl.val_div, if_pos h0]
    · left
      refine ⟨fun b => r.getD b 0 / r.sum, fun b hb => by rw [e b hb, Fl.val_div, if_neg h0], ?_⟩
      rw [← Finset.sum_div, ← list_sum hs.length, div_self h0]

end Weights

/-! ## Lemmas: pixels -/

/-- What C50 says, for the weights `u`. -/
theorem sharpen_formula {P : Finset (ℕ × ℕ)} (hP : 2 ≤ P.card) {v : ℕ × ℕ → ℕ → ℝ} {n : ℕ} (hvar : batchCov P v 0 0 ≠ 0)
    (hC : Definite n (batchCov P (fun q b => v q (b + 1)))) {wl : List (Fl ℝ)} {w : ℕ → ℝ} (hw : ∀ b < n, wl.getD b 0 = .val (w b))
    (hsum : ∑ b ∈ Finset.range n, w b = 1) :
    ∃ g β, Matches P v n w g β ∧ ∀ (pan : ℝ) (ms : ℕ → ℝ) (b : ℕ), b < n →
      sharpen n (mkParams n (batchMean P v) (batchCov P v) wl) (.val pan) (fun i => .val (ms i)) b = .val (sharpened P v n w g β pan ms b) := by
  obtain ⟨g, β, hgb, h1, h2, h3⟩ := C50_pan_stats P hP v n w (fun b => wl.getD b 0) hw hvar
  obtain ⟨a, φ, -, hφ, ha, -, hφ0⟩ := gs_finite n (batchCov P (fun q b => v q (b + 1))) w hC
  have hφ' : ∀ k l, l ≤ k → gsCoeffs n (fun i j => batchCov P v (i + 1) (j + 1)) (fun b => wl.getD b 0) k l = .val (φ k l) := by
    intro k l hl
    rw [← hφ k l hl]
    exact gsCoeffs_congr n _ hw hl
  refine ⟨g, β, ⟨h1, h2, h3⟩, ?_⟩
  intro pan ms b hb
  let q : Params ℝ := ⟨batchMean P v, φ, w, g, β⟩
  have hs := sharpen_val n (mkParams n (batchMean P v) (batchCov P v) wl) q (fun _ => rfl) hφ' hw (congrArg Prod.fst hgb)
    (congrArg Prod.snd hgb) pan ms b hb
  refine hs.trans ?_
  rw [C48_sharpened n q _ _ b hb]
  have hne : ∃ i < n, a 0 i ≠ 0 := by
    by_contra hcon
    push Not at hcon
    have : ∑ b ∈ Finset.range n, w b = 0 := Finset.sum_eq_zero fun i hi => by rw [← ha]; exact hcon i (Finset.mem_range.1 hi)
    rw [hsum] at this
    exact one_ne_zero this
  have e1 : φ b 0 = cov2 P (fun p => v p (b + 1)) (fun p => simPan n w (v p)) / cov2 P (fun p => simPan n w (v p)) (fun p => simPan n w (v p)) := by
    rw [hφ0 b 0 (Nat.zero_le _), if_pos hne, cov2_sim]
    congr 1
    · rw [cov2_comm]
      unfold simPan
      rw [cov2_sum_left P (Finset.range n) w (fun b p => v p (b + 1))]
      refine Finset.sum_congr rfl fun j _ => ?_
      rw [ha, batchCov_eq, cov2_comm]
    · unfold quad
      refine Finset.sum_congr rfl fun i _ => Finset.sum_congr rfl fun j _ => ?_
      rw [ha, ha]
      rfl
  unfold sharpened
  rw [← e1]

theorem matches_unique {P : Finset (ℕ × ℕ)} (hP : 2 ≤ P.card) {v : ℕ × ℕ → ℕ → ℝ} (hvar : batchCov P v 0 0 ≠ 0) {g g' β β' : ℝ} (hg : 0 ≤ g) (hg' : 0 ≤ g')
    (hm : mean1 P (fun p => g * v p 0 + β) = mean1 P (fun p => g' * v p 0 + β'))
    (hv : cov2 P (fun p => g * v p 0 + β) (fun p => g * v p 0 + β) = cov2 P (fun p => g' * v p 0 + β') (fun p => g' * v p 0 + β')) :
    g = g' ∧ β = β' := by
  have hP0 : 0 < P.card := by omega
  have e1 : ∀ g β : ℝ, mean1 P (fun p => g * v p 0 + β) = g * batchMean P v 0 + β := fun g β =>
    batchMean_affine hP0 (v' := fun p _ => g * v p 0 + β) (i := 0) fun _ _ => rfl
  have e2 : ∀ g β : ℝ, cov2 P (fun p => g * v p 0 + β) (fun p => g * v p 0 + β) = g * g * batchCov P v 0 0 := fun g β =>
    batchCov_affine hP0 (v' := fun p _ => g * v p 0 + β) (i := 0) (j := 0) (fun _ _ => rfl) fun _ _ => rfl
  rw [e2, e2] at hv
  have h1 : g = g' := (mul_self_inj hg hg').1 (mul_right_cancel₀ hvar hv)
  subst h1
  rw [e1, e1] at hm
  exact ⟨rfl, by linarith⟩

/-- Sharpened pixels of the bands in the other order. -/
theorem sharpen_shuffled {σ : Equiv.Perm ℕ} {n : ℕ} (hσ : ∀ b, n ≤ b → σ b = b) {P : Finset (ℕ × ℕ)} (hP : 2 ≤ P.card) {v v' : ℕ × ℕ → ℕ → ℝ}
    (hv : ∀ p i, v' p i = v p (shuffle σ i)) (hvar : batchCov P v 0 0 ≠ 0) (hC : Definite n (batchCov P (fun q b => v q (b + 1))))
    {wl wl' : List (Fl ℝ)} (hw : ∀ b < n, wl'.getD b 0 = wl.getD (σ b) 0)
    (hnum : (∃ u : ℕ → ℝ, (∀ b < n, wl.getD b 0 = .val (u b)) ∧ ∑ b ∈ Finset.range n, u b = 1) ∨ ∀ b < n, wl.getD b 0 = .nan)
    (pan : ℝ) (ms ms' : ℕ → ℝ) (hms : ∀ b < n, ms' b = ms (σ b)) (b : ℕ) (hb : b < n) :
    sharpen n (mkParams n (batchMean P v') (batchCov P v') wl') (.val pan) (fun i => .val (ms' i)) b =
      sharpen n (mkParams n (batchMean P v) (batchCov P v) wl) (.val pan) (fun i => .val (ms i)) (σ b) := by
  have hb' := (perm_lt hσ b).2 hb
  rcases hnum with ⟨u, hu, hsum⟩ | hnan
  · have hu' : ∀ b < n, wl'.getD b 0 = .val (u (σ b)) := fun b hb => by rw [hw b hb, hu _ ((perm_lt hσ b).2 hb)]
    have hC' : Definite n (batchCov P (fun q b => v' q (b + 1))) := by
      intro x hx
      have e : ∑ i ∈ Finset.range n, ∑ j ∈ Finset.range n, x i * x j * batchCov P (fun q b => v' q (b + 1)) i j =
          ∑ i ∈ Finset.range n, ∑ j ∈ Finset.range n, x (σ.symm i) * x (σ.symm j) * batchCov P (fun q b => v q (b + 1)) i j := by
        rw [← perm_sum hσ (fun i => ∑ j ∈ Finset.range n, x (σ.symm i) * x (σ.symm j) * batchCov P (fun q b => v q (b + 1)) i j)]
        refine Finset.sum_congr rfl fun i _ => ?_
        rw [← perm_sum hσ (fun j => x (σ.symm (σ i)) * x (σ.symm j) * batchCov P (fun q b => v q (b + 1)) (σ i) j)]
        refine Finset.sum_congr rfl fun j _ => ?_
        rw [Equiv.symm_apply_apply, Equiv.symm_apply_apply]
        congr 1
        unfold batchCov batchDev batchMean
        simp only [hv]
        rfl
      rw [e]
      refine hC _ ?_
      obtain ⟨i, hi, hx⟩ := hx
      exact ⟨σ i, (perm_lt hσ i).2 hi, by simpa using hx⟩
    have hvar' : batchCov P v' 0 0 ≠ 0 := by
      have e : batchCov P v' 0 0 = batchCov P v 0 0 := by
        unfold batchCov batchDev batchMean
        simp only [hv]
        rfl
      rw [e]; exact hvar
    obtain ⟨g, β, hm, hf⟩ := sharpen_formula hP hvar hC hu hsum
    obtain ⟨g', β', hm', hf'⟩ := sharpen_formula hP hvar' hC' hu' (by rw [perm_sum hσ]; exact hsum)
    have hsim : ∀ p, simPan n (fun b => u (σ b)) (v' p) = simPan n u (v p) := by
      intro p
      unfold simPan
      rw [← perm_sum hσ (fun b => u b * v p (b + 1))]
      exact Finset.sum_congr rfl fun b _ => by rw [hv]; rfl
    have h0 : ∀ p, v' p 0 = v p 0 := fun p => hv p 0
    have h1 := hm'.mean
    have h2 := hm'.var
    simp only [hsim, h0] at h1 h2
    obtain ⟨rfl, rfl⟩ := matches_unique hP hvar hm'.gain hm.gain (h1.trans hm.mean.symm) (h2.trans hm.var.symm)
    rw [hf _ _ _ hb', hf' _ _ _ hb]
    congr 1
    unfold sharpened
    simp only [hsim, hv]
    have h3 : ∑ i ∈ Finset.range n, u (σ i) * ms' i = ∑ i ∈ Finset.range n, u i * ms i := by
      rw [← perm_sum hσ (fun b => u b * ms b)]
      exact Finset.sum_congr rfl fun b hb => by rw [hms b (Finset.mem_range.1 hb)]
    rw [hms b hb, h3]
    rfl
  · rw [sharpen_nan n _ _ wl hnan _ _ _ hb', sharpen_nan n _ _ wl' (fun b hb => by rw [hw b hb, hnan _ ((perm_lt hσ b).2 hb)]) _ _ _ hb]

/-! ## Theorems -/

/-- The arguments with the MS bands and weights given. -/
def Args.withBands (a : Args) (ix : Option (List ℤ)) (w : Option (List ℝ)) : Args := { a with msIndexes := ix, weights := w }

/-- C127: the order of the MS bands does not matter.  When the bands `ix'` are the bands `ix` in another order, and weights, when given, are in the same order, the
pan-sharpened image has the same bands in that order, with the same colours and pixels, and the same profile, georeferencing, overviews and mask. -/
theorem C127_order (o : Obj C) (a : Args) (hls : OrderFree o.ls) (hi : InfoOk o) (ho : OptsOk a.opts) (ix ix' : List ℤ) (σ : Equiv.Perm ℕ)
    (hσ : ∀ b, ix.length ≤ b → σ b = b) (hix : Shuffled σ ix.length ix ix') (h0 : ix ≠ []) (w w' : Option (List ℝ))
    (hw : GivenShuffled σ ix.length w w') (hg : o.Good (a.withBands (some ix) w) ix) (fs fs₁ fs₂ : FS (PanFile C))
    (fault₁ fault₂ : Option (Fault (PanFile C))) (path : String) (hn : Names a.file path)
    (h₁ : Process o (a.withBands (some ix) w) fs fault₁ fs₁ (.ok ())) (h₂ : Process o (a.withBands (some ix') w') fs fault₂ fs₂ (.ok ())) :
    ∃ f₁ f₂, fs₁ = fs.put path (some f₁) ∧ fs₂ = fs.put path (some f₂) ∧ f₂.profile = f₁.profile ∧ f₂.crs = f₁.crs ∧ f₂.transform = f₁.transform ∧
      f₂.ovw = f₁.ovw ∧ (∀ b < ix.length, f₂.colors[b]? = f₁.colors[σ b]?) ∧
      ∀ r < o.grids.panWin.height.toNat, ∀ c < o.grids.panWin.width.toNat, (f₂.im r c).valid = (f₁.im r c).valid ∧
        ∀ b < ix.length, (f₂.im r c).data b = (f₁.im r c).data (σ b) := by
  obtain ⟨x, s, p, im, e1, e2, e3, e4, e5⟩ := process_ok (a := a.withBands (some ix) w) (path := path) hn h₁
  obtain ⟨x', s', p', im', e1', e2', e3', e4', e5'⟩ := process_ok (a := a.withBands (some ix') w') (path := path) hn h₂
  have hne' : ix' ≠ [] := by
    rintro rfl
    have := hix.length'
    exact h0 (List.length_eq_zero_iff.1 this.symm)
  obtain ⟨-, -, -, hv1, hp1⟩ := prepare_ok e1
  obtain ⟨-, -, -, hv2, hp2⟩ := prepare_ok e1'
  have hxi : x.ix = ix := bandsFor_unique (choice e1).bands (.inl ⟨ix, rfl, h0, rfl⟩)
  have hxi' : x'.ix = ix' := bandsFor_unique (choice e1').bands (.inl ⟨ix', rfl, hne', rfl⟩)
  obtain ⟨xi, xw, xp, xm⟩ := x
  obtain ⟨xi', xw', xp', xm'⟩ := x'
  simp only at hxi hxi'
  subst hxi hxi'
  have hlen : xi'.length = xi.length := hix.length'
  have hpp : xp' = xp ∧ xm' = xm := by
    have hp2' : createProfile a.driver xi'.length (panSize o).1 (panSize o).2 (dtypeOf o a) a.compress a.writeMask a.opts = .ok (xp', xm') := hp2
    have hp1' : createProfile a.driver xi.length (panSize o).1 (panSize o).2 (dtypeOf o a) a.compress a.writeMask a.opts = .ok (xp, xm) := hp1
    rw [hlen, hp1'] at hp2'
    cases hp2'
    exact ⟨rfl, rfl⟩
  obtain ⟨rfl, rfl⟩ := hpp
  have hww : GivenShuffled σ xi.length xw xw' := by
    have h1 := (choice e1).weights
    have h2 := (choice e1').weights
    have hpos : 0 < xi.length := List.length_pos_iff.2 h0
    cases w with
    | none =>
      cases w' with
      | some l => exact hw.elim
      | none =>
        have k1 : xw = none := h1.elim (fun ⟨l, e, _⟩ => nomatch e) (fun h => h.2)
        have k2 : xw' = none := h2.elim (fun ⟨l, e, _⟩ => nomatch e) (fun h => h.2)
        subst k1 k2
        trivial
    | some l =>
      cases w' with
      | none => exact hw.elim
      | some l' =>
        have hl : Shuffled σ xi.length l l' := hw
        have n1 : l ≠ [] := by rintro rfl; have := hl.length; simp at this; omega
        have n2 : l' ≠ [] := by rintro rfl; have := hl.length'; simp at this; omega
        have k1 : xw = some l := h1.elim (fun ⟨q, e, _, e'⟩ => e'.trans e.symm) (fun h => (h.1.elim (fun e => nomatch e) fun e => absurd (Option.some.inj e) n1))
        have k2 : xw' = some l' := h2.elim (fun ⟨q, e, _, e'⟩ => e'.trans e.symm) (fun h => (h.1.elim (fun e => nomatch e) fun e => absurd (Option.some.inj e) n2))
        subst k1 k2
        exact hl
  have hitem : ∀ b, xi'.getD b 0 = xi.getD (σ b) 0 := by
    intro b
    by_cases hb : b < xi.length
    · exact hix.item b hb
    · rw [hσ b (by omega)]
      simp [List.getD_eq_getElem?_getD, List.getElem?_eq_none (show xi.length ≤ b by omega), List.getElem?_eq_none (show xi'.length ≤ b by omega)]
  have hmem : ∀ q : ℤ → Prop, (∀ i ∈ xi', q i) ↔ ∀ i ∈ xi, q i := by
    intro q
    constructor
    · intro h i hi
      obtain ⟨b, hb, rfl⟩ := List.getElem_of_mem hi
      have hs : σ.symm b < xi.length := (perm_lt hσ _).1 (by simpa using hb)
      have := hitem (σ.symm b)
      rw [Equiv.apply_symm_apply, getD_lt _ hb, getD_lt _ (by rw [hlen]; exact hs)] at this
      rw [← this]
      exact h _ (List.getElem_mem _)
    · intro h i hi
      obtain ⟨b, hb, rfl⟩ := List.getElem_of_mem hi
      have hb' : b < xi.length := by rw [← hlen]; exact hb
      have := hitem b
      rw [getD_lt _ hb, getD_lt _ ((perm_lt hσ b).2 hb')] at this
      rw [this]
      exact h _ (List.getElem_mem _)
  have hP : o.P (a.withBands (some xi') w') xi' = o.P (a.withBands (some xi) w) xi := by
    unfold Obj.P
    refine Finset.filter_congr fun p _ => ?_
    rw [hmem fun i => (o.msToMs i p.1 p.2).isSome = true]
    rfl
  have hv : ∀ p i, o.v (a.withBands (some xi') w') xi' p i = o.v (a.withBands (some xi) w) xi p (shuffle σ i) := by
    intro p i
    cases i with
    | zero => rfl
    | succ b =>
      show (o.msToMs (xi'.getD b 0) p.1 p.2).getD 0 = (o.msToMs (xi.getD (σ b) 0) p.1 p.2).getD 0
      rw [hitem]
  rw [paramsOf_good e2 hg.two] at e3
  rw [paramsOf_good e2' (by rw [hP]; exact hg.two), hP] at e3'
  simp only [hlen] at e3'
  set P := o.P (a.withBands (some xi) w) xi with hPdef
  set v := o.v (a.withBands (some xi) w) xi with hvdef
  set v' := o.v (a.withBands (some xi') w') xi' with hvdef'
  have hcov : ∀ i j, batchCov P v' i j = batchCov P v (shuffle σ i) (shuffle σ j) := by
    intro i j
    unfold batchCov batchDev batchMean
    simp only [hv]
  unfold getParams at e3 e3'
  cases hwl : getWeights o.ls xi.length (batchCov P v) xw with
  | error e => rw [hwl] at e3; cases e3
  | ok wl =>
    cases hwl' : getWeights o.ls xi.length (batchCov P v') xw' with
    | error e => rw [hwl'] at e3'; cases e3'
    | ok wl' =>
      rw [hwl] at e3
      rw [hwl'] at e3'
      obtain rfl := Except.ok.inj e3
      obtain rfl := Except.ok.inj e3'
      obtain ⟨hsh, hnum⟩ := getWeights_shuffled hls hσ hcov hww hwl hwl'
      have hpo := profile_ok (show OptsOk (a.withBands (some xi) w).opts from ho) hp1
      refine ⟨_, _, e5, e5', rfl, rfl, rfl, rfl, ?_, ?_⟩
      · intro b hb
        show (xi'.map _)[b]? = (xi.map _)[σ b]?
        have hb1 : b < xi'.length := by rw [hlen]; exact hb
        have hb2 := (perm_lt hσ b).2 hb
        have := hitem b
        rw [getD_lt _ hb1, getD_lt _ hb2] at this
        simp [hb1, hb2, this]
      · intro r hr c hc
        have hr' : r < (o.info xp').height := by rw [hi.height _ _ hpo.height]; exact hr
        have hc' : c < (o.info xp').width := by rw [hi.width _ _ hpo.width]; exact hc
        have q1 := C52_pixels _ _ _ e4 r hr' c hc'
        have q2 := C52_pixels _ _ _ e4' r hr' c hc'
        have hval : (onPan o a.panIndex a.interp xi').Valid (r, c) ↔ (onPan o a.panIndex a.interp xi).Valid (r, c) := by
          unfold Images.Valid onPan
          simp only [hlen]
          refine and_congr Iff.rfl ?_
          constructor
          · intro h b hb
            have := h (σ.symm b) ((perm_lt hσ _).1 (by simpa using hb))
            rw [hitem] at this
            simpa using this
          · intro h b hb
            rw [hitem]
            exact h _ ((perm_lt hσ b).2 hb)
        constructor
        · show (im' r c).valid = (im r c).valid
          rw [q1.2.1, q2.2.1]
          show (if xm' = true then decide ((onPan o a.panIndex a.interp xi').Valid (r, c)) else _) =
            if xm' = true then decide ((onPan o a.panIndex a.interp xi).Valid (r, c)) else _
          split_ifs
          · exact decide_eq_decide.2 hval
          · rfl
        · intro b hb
          show (im' r c).data b = (im r c).data (σ b)
          rw [q1.1, q2.1]
          by_cases hvd : (onPan o a.panIndex a.interp xi).Valid (r, c)
          · rw [if_pos (show (sharpIn o (a.withBands (some xi) w) ⟨xi, xw, xp', xm'⟩ _).im.Valid (r, c) from hvd),
              if_pos (show (sharpIn o (a.withBands (some xi') w') ⟨xi', xw', xp', xm'⟩ _).im.Valid (r, c) from hval.2 hvd)]
            have e := sharpen_shuffled hσ hg.two hv hg.pan hg.ms hsh hnum ((onPan o a.panIndex a.interp xi).vec (r, c) 0)
              (fun i => (onPan o a.panIndex a.interp xi).vec (r, c) (i + 1)) (fun i => (onPan o a.panIndex a.interp xi').vec (r, c) (i + 1))
              (fun b _ => by
                show (o.msToPan a.interp (xi'.getD b 0) r c).getD 0 = (o.msToPan a.interp (xi.getD (σ b) 0) r c).getD 0
                rw [hitem]) b hb
            have e' := congrArg (fun z => convertDtype o.env .float64 (dtOf (dtypeOf o a)) (toVal z)) e
            unfold sharpValue
            show convertDtype o.env .float64 (dtOf (dtypeOf o a)) (toVal (sharpen xi'.length _ _ _ _)) = _
            rw [hlen]
            exact e'
          · rw [if_neg (show ¬ (sharpIn o (a.withBands (some xi) w) ⟨xi, xw, xp', xm'⟩ _).im.Valid (r, c) from hvd),
              if_neg (show ¬ (sharpIn o (a.withBands (some xi') w') ⟨xi', xw', xp', xm'⟩ _).im.Valid (r, c) from fun h => hvd (hval.1 h))]
            rfl

/-- C127 fails for bands that depend on each other.  With two bands that have the same values, as when one band is given twice, and with equal weights, band 1 of a
pixel is a number and band 2 is NaN, so that the order of the bands decides which of them is lost. -/
theorem C127_dependent_fails (ls : List (List ℝ) → List ℝ → List ℝ) :
    ∃ p, getParams ls 2 (fun _ => 0) (fun _ _ => 1) (some [1, 1]) = .ok p ∧ sharpen 2 p (.val 3) (fun _ => .val 1) 0 = .val 3 ∧
      sharpen 2 p (.val 3) (fun _ => .val 1) 1 = .nan := by
  refine ⟨_, rfl, ?_, ?_⟩
  · rw [sharpen_comp _ _ _ _ (by omega), gsComp_succ]
    norm_num [gsComp_zero, rdot, rsum, mkParams, panNorm, gsCoeffs, gsCoeff, gsRows, List.range_succ, Fl.val_div, List.getD]
    simp only [show (0 : Fl ℝ) = Fl.val 0 from rfl, Fl.val_add, Fl.val_mul, Fl.val_div]
    norm_num [Fl.val_div]
  · rw [sharpen_comp _ _ _ _ (by omega), gsComp_succ]
    norm_num [gsComp_succ, gsComp_zero, rdot, rsum, mkParams, panNorm, gsCoeffs, gsCoeff, gsRows, List.range_succ, Fl.val_div, List.getD]
    simp only [show (0 : Fl ℝ) = Fl.val 0 from rfl, Fl.val_add, Fl.val_mul, Fl.val_div]
    norm_num [Fl.val_div]

/-! ## Examples -/

theorem inverseLs_getD (A : List (List ℝ)) (b : List ℝ) (n : ℕ) (hn : b.length = n) (k : ℕ) (hk : k < n) :
    (inverseLs A b).getD k 0 = Matrix.mulVec (Matrix.of fun i j : Fin n => (A.getD i []).getD j 0)⁻¹ (fun j => b.getD j 0) ⟨k, hk⟩ := by
  subst hn
  simp [inverseLs, List.getD_eq_getElem?_getD, hk]

/-- `OrderFree` can be met by a solution of all systems with a regular matrix. -/
theorem inverseLs_orderFree : OrderFree inverseLs := by
  refine ⟨fun A b => by simp [inverseLs], ?_⟩
  intro A d idx idx' hnd hp k k' hk hk' he
  have hnd' : idx'.Nodup := hp.nodup_iff.2 hnd
  let e : Fin idx'.length ≃ Fin idx.length :=
    (List.Nodup.getEquiv idx' hnd').trans ((Equiv.subtypeEquivRight fun x => hp.mem_iff).trans (List.Nodup.getEquiv idx hnd).symm)
  have hee : ∀ i : Fin idx'.length, idx[(e i : ℕ)] = idx'[(i : ℕ)] := by
    intro i
    have h := (List.Nodup.getEquiv idx hnd).apply_symm_apply ((Equiv.subtypeEquivRight fun x => hp.mem_iff) (List.Nodup.getEquiv idx' hnd' i))
    exact congrArg Subtype.val h
  have hM : ∀ (l : List ℕ) (i j : Fin l.length), ((l.map fun i => l.map fun j => A i j).getD i []).getD j 0 = A l[(i : ℕ)] l[(j : ℕ)] := by
    intro l i j
    simp [List.getD_eq_getElem?_getD]
  have hd : ∀ (l : List ℕ) (j : Fin l.length), (l.map d).getD j 0 = d l[(j : ℕ)] := by
    intro l j
    simp [List.getD_eq_getElem?_getD]
  rw [inverseLs_getD _ _ idx.length (by simp) k hk, inverseLs_getD _ _ idx'.length (by simp) k' hk']
  simp only [hM, hd]
  have e1 : (Matrix.of fun i j : Fin idx'.length => A idx'[(i : ℕ)] idx'[(j : ℕ)]) =
      (Matrix.of fun i j : Fin idx.length => A idx[(i : ℕ)] idx[(j : ℕ)]).submatrix e e := by
    ext i j
    simp only [Matrix.of_apply, Matrix.submatrix_apply, hee]
  have e2 : (fun j : Fin idx'.length => d idx'[(j : ℕ)]) = (fun j : Fin idx.length => d idx[(j : ℕ)]) ∘ e := by
    funext j
    simp only [Function.comp, hee]
  have e3 : e ⟨k', hk'⟩ = ⟨k, hk⟩ := by
    apply Fin.ext
    have h := hee ⟨k', hk'⟩
    simp only at h
    exact (hnd.getElem_inj_iff).1 (h.trans he.symm)
  rw [e1, e2, Matrix.inv_submatrix_equiv, Matrix.submatrix_mulVec_equiv]
  rw [Function.comp_assoc, Equiv.self_comp_symm, Function.comp_id, Function.comp_apply, e3]

/-- The demonstration images, with bands 1, 2 and with bands 2, 1. -/
example : ∃ (o : Obj ℕ) (fs₁ fs₂ : FS (PanFile ℕ)) (f₁ f₂ : PanFile ℕ), fs₁ "sharp.tif" = some f₁ ∧ fs₂ "sharp.tif" = some f₂ ∧
    Process o (demoArgs 1 (some [1, 2])) (fun _ => none) none fs₁ (.ok ()) ∧ Process o (demoArgs 1 (some [2, 1])) (fun _ => none) none fs₂ (.ok ()) ∧
    f₂.colors = ["nir", "red"] ∧ ∀ r < 4, ∀ c < 4, (f₂.im r c).data 0 = (f₁.im r c).data 1 ∧ (f₂.im r c).data 1 = (f₁.im r c).data 0 := by
  let t : Affine ℝ := ⟨1, 0, 0, 0, -1, 0⟩
  let pan : Raster ℝ ℕ := ⟨some 32735, t, 4, 4⟩
  let g : Grids ℝ := ⟨t, t, ⟨0, 0, 4, 4⟩, ⟨0, 0, 2, 2⟩, t, t⟩
  let o := demoObj inverseLs pan g
  have hgood := demo_good inverseLs pan g rfl (some [1, 2])
  obtain ⟨⟨fs₁, h1⟩, -⟩ := C83_completes o _ (fun _ => none) (demo_info inverseLs pan g) "sharp.tif" [1, 2] none "float64"
    (demo_ready inverseLs pan g 1 (by decide) [1, 2] (by decide) (by decide)) ⟨.inl rfl, .inl rfl⟩ (fun _ => rfl) (fun _ => rfl) hgood.two (.inl (by decide))
  obtain ⟨⟨fs₂, h2⟩, -⟩ := C83_completes o _ (fun _ => none) (demo_info inverseLs pan g) "sharp.tif" [2, 1] none "float64"
    (demo_ready inverseLs pan g 1 (by decide) [2, 1] (by decide) (by decide)) ⟨.inl rfl, .inl rfl⟩ (fun _ => rfl) (fun _ => rfl)
    (by rw [demo_P inverseLs pan g rfl]; decide) (.inl (by decide))
  obtain ⟨f₁, f₂, e1, e2, -, -, -, -, -, hpx⟩ := C127_order o (demoArgs 1 none) inverseLs_orderFree (demo_info inverseLs pan g)
    ⟨by simp [Dict.Ok, demoArgs], by intro k _; rfl⟩ [1, 2] [2, 1] (Equiv.swap 0 1)
    (fun b hb => Equiv.swap_apply_of_ne_of_ne (by have : 2 ≤ b := hb; omega) (by have : 2 ≤ b := hb; omega))
    ⟨rfl, rfl, fun b hb => by
      have hb : b < 2 := hb
      interval_cases b <;> simp⟩ (by decide) none none trivial hgood _ _ _ _ _ "sharp.tif" (.inl rfl) h1 h2
  obtain ⟨x, s, p, im, k1, -, -, -, k5⟩ := process_ok (a := demoArgs 1 (some [2, 1])) (path := "sharp.tif") (.inl rfl) h2
  refine ⟨o, fs₁, fs₂, f₁, f₂, by rw [e1]; simp [FS.put], by rw [e2]; simp [FS.put], h1, h2, ?_, ?_⟩
  · have := congrFun (e2.symm.trans k5) "sharp.tif"
    simp only [FS.put, if_true, Option.some.injEq] at this
    obtain rfl := this
    have hx : x.ix = [2, 1] := bandsFor_unique (choice k1).bands (.inl ⟨_, rfl, by decide, rfl⟩)
    show x.ix.map _ = _
    rw [hx]
    rfl
  · intro r hr c hc
    have := hpx r hr c hc
    refine ⟨?_, ?_⟩
    · simpa using this.2 0 (by decide)
    · simpa using this.2 1 (by decide)

end Verif.PanProcess
