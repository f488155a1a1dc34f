import Verif.Rpc.Props
import Mathlib.Tactic.Positivity
import Mathlib.Tactic.NormNum
import Mathlib.Algebra.Order.BigOperators.Group.List

/-!
# C31: least squares
-/

set_option autoImplicit false
set_option linter.unusedSectionVars false

namespace Verif.RpcCam

variable {K : Type} [Field K] [LinearOrder K] [IsStrictOrderedRing K]

/-- Sum of squared errors of a transform of one axis, for pairs (x, y). -/
def sse (l : List (K × K)) (t : Tform K) : K := (l.map fun p => (p.2 - (t.m * p.1 + t.c)) ^ 2).sum

/-- What `np.linalg.lstsq` gives: a least squares solution, and the one of least norm if there are several. -/
def IsLstsq (lstsq : List (K × K) → Tform K) : Prop :=
  ∀ l, (∀ t, sse l (lstsq l) ≤ sse l t) ∧
    ∀ t, sse l t = sse l (lstsq l) → (lstsq l).m ^ 2 + (lstsq l).c ^ 2 ≤ t.m ^ 2 + t.c ^ 2

/-- Sum of errors. -/
def sres (l : List (K × K)) (t : Tform K) : K := (l.map fun p => p.2 - (t.m * p.1 + t.c)).sum

/-- Sum of errors times coordinates. -/
def sxres (l : List (K × K)) (t : Tform K) : K := (l.map fun p => p.1 * (p.2 - (t.m * p.1 + t.c))).sum

def sx (l : List (K × K)) : K := (l.map Prod.fst).sum

def sxx (l : List (K × K)) : K := (l.map fun p => p.1 ^ 2).sum

theorem sse_shift (l : List (K × K)) (t : Tform K) (a b : K) :
    sse l ⟨t.m + a, t.c + b⟩ =
      sse l t - 2 * a * sxres l t - 2 * b * sres l t + a ^ 2 * sxx l + 2 * a * b * sx l + b ^ 2 * l.length := by
  induction l with
  | nil => simp [sse, sxres, sres, sxx, sx]
  | cons p l ih =>
    simp only [sse, sxres, sres, sxx, sx, List.map_cons, List.sum_cons, List.length_cons, Nat.cast_add,
      Nat.cast_one] at ih ⊢
    rw [ih]
    ring

theorem sxx_nonneg (l : List (K × K)) : 0 ≤ sxx l := by
  apply List.sum_nonneg
  intro x hx
  obtain ⟨p, -, rfl⟩ := List.mem_map.1 hx
  positivity

theorem sse_nonneg (l : List (K × K)) (t : Tform K) : 0 ≤ sse l t := by
  apply List.sum_nonneg
  intro x hx
  obtain ⟨p, -, rfl⟩ := List.mem_map.1 hx
  positivity

theorem sxx_eq_zero {l : List (K × K)} (h : sxx l = 0) : ∀ p ∈ l, p.1 = 0 := by
  induction l with
  | nil => simp
  | cons p l ih =>
    simp only [sxx, List.map_cons, List.sum_cons] at h
    have h1 := sxx_nonneg l
    have h2 : 0 ≤ p.1 ^ 2 := by positivity
    unfold sxx at h1
    have h3 : p.1 ^ 2 = 0 := by linarith
    have h4 : sxx l = 0 := by unfold sxx; linarith
    intro q hq
    rcases List.mem_cons.1 hq with rfl | hq
    · exact pow_eq_zero_iff (two_ne_zero) |>.1 h3
    · exact ih h4 q hq

/-- The normal equations hold exactly for the least squares solutions. -/
theorem normal_iff (l : List (K × K)) (hl : l ≠ []) (t : Tform K) :
    (∀ t', sse l t ≤ sse l t') ↔ sres l t = 0 ∧ sxres l t = 0 := by
  have hn : (0 : K) < l.length := by exact_mod_cast List.length_pos_iff.2 hl
  constructor
  · intro h
    constructor
    · have := h ⟨t.m + 0, t.c + sres l t / l.length⟩
      rw [sse_shift] at this
      have e : sse l t - 2 * 0 * sxres l t - 2 * (sres l t / l.length) * sres l t + 0 ^ 2 * sxx l +
          2 * 0 * (sres l t / l.length) * sx l + (sres l t / l.length) ^ 2 * l.length =
          sse l t - sres l t ^ 2 / l.length := by field_simp; ring
      rw [e] at this
      have h2 : 0 ≤ sres l t ^ 2 / l.length := by positivity
      have h3 : sres l t ^ 2 / l.length = 0 := by linarith
      rw [div_eq_zero_iff] at h3
      rcases h3 with h3 | h3
      · exact pow_eq_zero_iff two_ne_zero |>.1 h3
      · exact absurd h3 hn.ne'
    · rcases (sxx_nonneg l).eq_or_lt with h0 | h0
      · have hx := sxx_eq_zero h0.symm
        unfold sxres
        apply List.sum_eq_zero
        intro x hx'
        obtain ⟨p, hp, rfl⟩ := List.mem_map.1 hx'
        rw [hx p hp]; ring
      · have := h ⟨t.m + sxres l t / sxx l, t.c + 0⟩
        rw [sse_shift] at this
        have e : sse l t - 2 * (sxres l t / sxx l) * sxres l t - 2 * 0 * sres l t + (sxres l t / sxx l) ^ 2 * sxx l +
            2 * (sxres l t / sxx l) * 0 * sx l + 0 ^ 2 * l.length = sse l t - sxres l t ^ 2 / sxx l := by
          field_simp; ring
        rw [e] at this
        have h2 : 0 ≤ sxres l t ^ 2 / sxx l := by positivity
        have h3 : sxres l t ^ 2 / sxx l = 0 := by linarith
        rw [div_eq_zero_iff] at h3
        rcases h3 with h3 | h3
        · exact pow_eq_zero_iff two_ne_zero |>.1 h3
        · exact absurd h3 h0.ne'
  · rintro ⟨h1, h2⟩ t'
    have e : t' = ⟨t.m + (t'.m - t.m), t.c + (t'.c - t.c)⟩ := by
      cases t'; simp
    have h3 : 0 ≤ (t'.m - t.m) ^ 2 * sxx l + 2 * (t'.m - t.m) * (t'.c - t.c) * sx l + (t'.c - t.c) ^ 2 * l.length := by
      have := sse_nonneg (l.map fun p => (p.1, (0 : K))) ⟨t'.m - t.m, t'.c - t.c⟩
      have e2 : sse (l.map fun p => (p.1, (0 : K))) ⟨t'.m - t.m, t'.c - t.c⟩ =
          (t'.m - t.m) ^ 2 * sxx l + 2 * (t'.m - t.m) * (t'.c - t.c) * sx l + (t'.c - t.c) ^ 2 * l.length := by
        clear h1 h2 hl hn e this
        induction l with
        | nil => simp [sse, sxx, sx]
        | cons p l ih =>
          simp only [sse, sxx, sx, List.map_cons, List.sum_cons, List.length_cons, Nat.cast_add, Nat.cast_one] at ih ⊢
          rw [ih]; ring
      rw [← e2]; exact this
    rw [e, sse_shift, h1, h2]
    linarith

/-- A least squares solution is unique when the coordinates are not all equal. -/
theorem lstsq_unique (l : List (K × K)) (hd : ∃ p ∈ l, ∃ q ∈ l, p.1 ≠ q.1) (t t' : Tform K)
    (h : sres l t = 0 ∧ sxres l t = 0) (h' : sres l t' = 0 ∧ sxres l t' = 0) : t = t' := by
  obtain ⟨p, hp, q, hq, hpq⟩ := hd
  -- the sum of squares of the differences is zero
  have key : (l.map fun p => ((t.m - t'.m) * p.1 + (t.c - t'.c)) ^ 2).sum = 0 := by
    have e : (l.map fun p => ((t.m - t'.m) * p.1 + (t.c - t'.c)) ^ 2).sum =
        (t.m - t'.m) * (sxres l t' - sxres l t) + (t.c - t'.c) * (sres l t' - sres l t) := by
      clear h h' hp hq
      induction l with
      | nil => simp [sxres, sres]
      | cons p l ih =>
        simp only [sxres, sres, List.map_cons, List.sum_cons] at ih ⊢
        rw [ih]; ring
    rw [e, h.1, h.2, h'.1, h'.2]; ring
  have each : ∀ p ∈ l, (t.m - t'.m) * p.1 + (t.c - t'.c) = 0 := by
    clear h h' hp hq
    induction l with
    | nil => simp
    | cons p l ih =>
      simp only [List.map_cons, List.sum_cons] at key
      have h1 : 0 ≤ (l.map fun p => ((t.m - t'.m) * p.1 + (t.c - t'.c)) ^ 2).sum := by
        apply List.sum_nonneg
        intro x hx
        obtain ⟨p, -, rfl⟩ := List.mem_map.1 hx
        positivity
      have h2 : 0 ≤ ((t.m - t'.m) * p.1 + (t.c - t'.c)) ^ 2 := by positivity
      intro q hq
      rcases List.mem_cons.1 hq with rfl | hq
      · exact pow_eq_zero_iff two_ne_zero |>.1 (by linarith)
      · exact ih (by linarith) q hq
  have h1 := each p hp
  have h2 := each q hq
  have h3 : (t.m - t'.m) * (p.1 - q.1) = 0 := by linear_combination h1 - h2
  rcases mul_eq_zero.1 h3 with h4 | h4
  · have hm : t.m = t'.m := by linarith
    have hc : t.c = t'.c := by rw [h4] at h1; linarith
    cases t; cases t'; simp only at hm hc; rw [hm, hc]
  · exact absurd (by linarith) hpq

/-! ## Residuals in pixels -/

/-- Residuals of the GCPs along the columns. -/
def resJ (r : Rpc K) (gcps : List (Gcp K)) : List K := gcps.map fun g => g.ji.1 - (project r g.xyz).1

/-- Residuals of the GCPs along the rows. -/
def resI (r : Rpc K) (gcps : List (Gcp K)) : List K := gcps.map fun g => g.ji.2 - (project r g.xyz).2

/-- The model can be evaluated at all GCPs. -/
structure Usable (r : Rpc K) (gcps : List (Gcp K)) : Prop where
  samp : r.sampScale ≠ 0
  line : r.lineScale ≠ 0
  gcps : ∀ g ∈ gcps, Defined r g.xyz

/-- C31: after refinement with the shift method, the GCP residuals have zero mean. -/
theorem C31_shift_zero_mean (lstsq : List (K × K) → Tform K) (r r' : Rpc K) (gcps : List (Gcp K))
    (h : refineRpc lstsq .shift r gcps = .ok r') (hu : Usable r gcps) :
    (resJ r' gcps).sum = 0 ∧ (resI r' gcps).sum = 0 := by
  have hn : (gcps.length : K) ≠ 0 := by exact_mod_cast (by have := (refineRpc_ok h).2; omega : gcps.length ≠ 0)
  have key : ∀ (l : List (Gcp K)) (f g : Gcp K → K) (c : K), (∀ x ∈ l, g x = f x - c) →
      (l.map g).sum = (l.map f).sum - l.length * c := by
    intro l f g c hl
    induction l with
    | nil => simp
    | cons x l ih =>
      simp only [List.map_cons, List.sum_cons, List.length_cons, Nat.cast_add, Nat.cast_one]
      rw [ih fun y hy => hl y (by simp [hy]), hl x (by simp)]; ring
  constructor
  · unfold resJ
    rw [key gcps (fun g => g.ji.1 - (project r g.xyz).1) _
      ((gcps.map fun g => g.ji.1 - (project r g.xyz).1).sum / gcps.length)]
    · field_simp; ring
    · intro g hg
      rw [C30_shift lstsq r r' gcps h hu.samp hu.line g.xyz (hu.gcps g hg)]; ring
  · unfold resI
    rw [key gcps (fun g => g.ji.2 - (project r g.xyz).2) _
      ((gcps.map fun g => g.ji.2 - (project r g.xyz).2).sum / gcps.length)]
    · field_simp; ring
    · intro g hg
      rw [C30_shift lstsq r r' gcps h hu.samp hu.line g.xyz (hu.gcps g hg)]; ring

theorem mean_optimal (l : List K) (d : K) (h : l.sum = 0) :
    (l.map fun x => x ^ 2).sum ≤ (l.map fun x => (x - d) ^ 2).sum := by
  have e : (l.map fun x => (x - d) ^ 2).sum = (l.map fun x => x ^ 2).sum - 2 * d * l.sum + l.length * d ^ 2 := by
    clear h
    induction l with
    | nil => simp
    | cons x l ih =>
      simp only [List.map_cons, List.sum_cons, List.length_cons, Nat.cast_add, Nat.cast_one]
      rw [ih]; ring
  rw [e, h]
  have : (0 : K) ≤ l.length * d ^ 2 := by positivity
  linarith

/-- C31: no other shift of the original model has a smaller sum of squared residuals, along columns or rows. -/
theorem C31_shift_optimal (lstsq : List (K × K) → Tform K) (r r' : Rpc K) (gcps : List (Gcp K))
    (h : refineRpc lstsq .shift r gcps = .ok r') (hu : Usable r gcps) (dj di : K) :
    (gcps.map fun g => (g.ji.1 - (project r' g.xyz).1) ^ 2).sum ≤
      (gcps.map fun g => (g.ji.1 - ((project r g.xyz).1 + dj)) ^ 2).sum ∧
    (gcps.map fun g => (g.ji.2 - (project r' g.xyz).2) ^ 2).sum ≤
      (gcps.map fun g => (g.ji.2 - ((project r g.xyz).2 + di)) ^ 2).sum := by
  obtain ⟨h1, h2⟩ := C31_shift_zero_mean lstsq r r' gcps h hu
  have h3 := mean_optimal _ (dj - (gcps.map fun g => g.ji.1 - (project r g.xyz).1).sum / gcps.length) h1
  have h4 := mean_optimal _ (di - (gcps.map fun g => g.ji.2 - (project r g.xyz).2).sum / gcps.length) h2
  simp only [resJ, resI, List.map_map, Function.comp_def] at h3 h4
  constructor
  · refine h3.trans (le_of_eq ?_)
    congr 1
    apply List.map_congr_left
    intro g hg
    rw [C30_shift lstsq r r' gcps h hu.samp hu.line g.xyz (hu.gcps g hg)]; ring
  · refine h4.trans (le_of_eq ?_)
    congr 1
    apply List.map_congr_left
    intro g hg
    rw [C30_shift lstsq r r' gcps h hu.samp hu.line g.xyz (hu.gcps g hg)]; ring

theorem refineNum_id (num den : Fin 20 → K) : refineNum ⟨1, 0⟩ num den = num := by
  funext i; simp [refineNum]

theorem usable_refined {lstsq : List (K × K) → Tform K} {method : Method} {r r' : Rpc K} {gcps : List (Gcp K)}
    (h : refineRpc lstsq method r gcps = .ok r') (hu : Usable r gcps) : Usable r' gcps := by
  rw [(refineRpc_ok h).1]
  exact ⟨hu.samp, hu.line, fun g hg => defined_withTforms (hu.gcps g hg) _ _⟩

theorem sum_div (l : List K) (d : K) : (l.map fun x => x / d).sum = l.sum / d := by
  induction l with
  | nil => simp
  | cons x l ih => simp [ih, add_div]

/-- C31: refining again with the shift method and the same GCPs changes nothing. -/
theorem C31_shift_idempotent (lstsq : List (K × K) → Tform K) (r r' : Rpc K) (gcps : List (Gcp K))
    (h : refineRpc lstsq .shift r gcps = .ok r') (hu : Usable r gcps) :
    refineRpc lstsq .shift r' gcps = .ok r' := by
  obtain ⟨h1, h2⟩ := C31_shift_zero_mean lstsq r r' gcps h hu
  have hlen := (refineRpc_ok h).2
  have hu' := usable_refined h hu
  have hj : fitAxis lstsq .shift (pairsJ r' gcps) = ⟨1, 0⟩ := by
    simp only [fitAxis, pairsJ, normJi, List.map_map, Function.comp_def, Tform.mk.injEq, true_and]
    have e : (gcps.map fun g => (g.ji.1 - r'.sampOff) / r'.sampScale - ((project r' g.xyz).1 - r'.sampOff) / r'.sampScale) =
        (resJ r' gcps).map fun x => x / r'.sampScale := by
      simp only [resJ, List.map_map, Function.comp_def]
      apply List.map_congr_left; intro g _
      have := hu'.samp
      field_simp; ring
    rw [e, sum_div, h1]; simp
  have hi : fitAxis lstsq .shift (pairsI r' gcps) = ⟨1, 0⟩ := by
    simp only [fitAxis, pairsI, normJi, List.map_map, Function.comp_def, Tform.mk.injEq, true_and]
    have e : (gcps.map fun g => (g.ji.2 - r'.lineOff) / r'.lineScale - ((project r' g.xyz).2 - r'.lineOff) / r'.lineScale) =
        (resI r' gcps).map fun x => x / r'.lineScale := by
      simp only [resI, List.map_map, Function.comp_def]
      apply List.map_congr_left; intro g _
      have := hu'.line
      field_simp; ring
    rw [e, sum_div, h2]; simp
  unfold refineRpc
  simp only
  rw [if_neg (by omega), hj, hi, refineNum_id, refineNum_id]

/-! ## Shift and drift -/

theorem pairs_refined_J {lstsq : List (K × K) → Tform K} {r r' : Rpc K} {gcps : List (Gcp K)}
    (h : refineRpc lstsq .shiftDrift r gcps = .ok r') (hu : Usable r gcps) :
    pairsJ r' gcps = (pairsJ r gcps).map fun p =>
      ((lstsq (pairsJ r gcps)).m * p.1 + (lstsq (pairsJ r gcps)).c, p.2) := by
  have h1 := (refineRpc_ok h).1
  simp only [pairsJ, List.map_map]
  apply List.map_congr_left
  intro g hg
  have h2 := project_withTforms r (fitAxis lstsq .shiftDrift (pairsJ r gcps)) (fitAxis lstsq .shiftDrift (pairsI r gcps))
    g.xyz (hu.gcps g hg) hu.samp hu.line
  rw [← h1] at h2
  have e : ∀ x, normJi r' x = normJi r x := by intro x; rw [h1]; rfl
  simp only [e, h2, fitAxis, Function.comp_def]
  rfl

theorem pairs_refined_I {lstsq : List (K × K) → Tform K} {r r' : Rpc K} {gcps : List (Gcp K)}
    (h : refineRpc lstsq .shiftDrift r gcps = .ok r') (hu : Usable r gcps) :
    pairsI r' gcps = (pairsI r gcps).map fun p =>
      ((lstsq (pairsI r gcps)).m * p.1 + (lstsq (pairsI r gcps)).c, p.2) := by
  have h1 := (refineRpc_ok h).1
  simp only [pairsI, List.map_map]
  apply List.map_congr_left
  intro g hg
  have h2 := project_withTforms r (fitAxis lstsq .shiftDrift (pairsJ r gcps)) (fitAxis lstsq .shiftDrift (pairsI r gcps))
    g.xyz (hu.gcps g hg) hu.samp hu.line
  rw [← h1] at h2
  have e : ∀ x, normJi r' x = normJi r x := by intro x; rw [h1]; rfl
  simp only [e, h2, fitAxis, Function.comp_def]
  rfl

/-- Residuals after a fit, as residuals of the fitted pairs. -/
theorem sres_map (l : List (K × K)) (t : Tform K) :
    ((l.map fun p => (t.m * p.1 + t.c, p.2)).map fun p => p.2 - p.1).sum = sres l t := by
  simp only [List.map_map, Function.comp_def, sres]

theorem resJ_sum (r : Rpc K) (gcps : List (Gcp K)) (hs : r.sampScale ≠ 0) :
    (resJ r gcps).sum = r.sampScale * ((pairsJ r gcps).map fun p => p.2 - p.1).sum := by
  simp only [resJ, pairsJ, normJi, List.map_map, Function.comp_def]
  induction gcps with
  | nil => simp
  | cons g l ih =>
    simp only [List.map_cons, List.sum_cons]
    rw [ih]; field_simp; ring

theorem resI_sum (r : Rpc K) (gcps : List (Gcp K)) (hs : r.lineScale ≠ 0) :
    (resI r gcps).sum = r.lineScale * ((pairsI r gcps).map fun p => p.2 - p.1).sum := by
  simp only [resI, pairsI, normJi, List.map_map, Function.comp_def]
  induction gcps with
  | nil => simp
  | cons g l ih =>
    simp only [List.map_cons, List.sum_cons]
    rw [ih]; field_simp; ring

theorem pairs_ne {lstsq : List (K × K) → Tform K} {method : Method} {r r' : Rpc K} {gcps : List (Gcp K)}
    (h : refineRpc lstsq method r gcps = .ok r') : pairsJ r gcps ≠ [] ∧ pairsI r gcps ≠ [] := by
  have := (refineRpc_ok h).2
  constructor <;> · intro h'; simp [pairsJ, pairsI] at h'; simp [h'] at this

/-- C31: after refinement with the shift and drift method, the GCP residuals have zero mean. -/
theorem C31_drift_zero_mean (lstsq : List (K × K) → Tform K) (hls : IsLstsq lstsq) (r r' : Rpc K)
    (gcps : List (Gcp K)) (h : refineRpc lstsq .shiftDrift r gcps = .ok r') (hu : Usable r gcps) :
    (resJ r' gcps).sum = 0 ∧ (resI r' gcps).sum = 0 := by
  have hu' := usable_refined h hu
  have h1 := (normal_iff _ (pairs_ne h).1 _).1 (hls (pairsJ r gcps)).1
  have h2 := (normal_iff _ (pairs_ne h).2 _).1 (hls (pairsI r gcps)).1
  rw [resJ_sum r' gcps hu'.samp, resI_sum r' gcps hu'.line, pairs_refined_J h hu, pairs_refined_I h hu, sres_map,
    sres_map, h1.1, h2.1]
  simp

/-- C31: after refinement with the shift and drift method, the GCP residuals are not correlated with the projections
(of the original model). -/
theorem C31_drift_uncorrelated (lstsq : List (K × K) → Tform K) (hls : IsLstsq lstsq) (r r' : Rpc K)
    (gcps : List (Gcp K)) (h : refineRpc lstsq .shiftDrift r gcps = .ok r') (hu : Usable r gcps) :
    (gcps.map fun g => (project r g.xyz).1 * (g.ji.1 - (project r' g.xyz).1)).sum = 0 ∧
    (gcps.map fun g => (project r g.xyz).2 * (g.ji.2 - (project r' g.xyz).2)).sum = 0 := by
  have h0 := (refineRpc_ok h).1
  have h1 := (normal_iff _ (pairs_ne h).1 _).1 (hls (pairsJ r gcps)).1
  have h2 := (normal_iff _ (pairs_ne h).2 _).1 (hls (pairsI r gcps)).1
  have hp : ∀ g ∈ gcps, normJi r (project r' g.xyz) =
      ((lstsq (pairsJ r gcps)).m * (normJi r (project r g.xyz)).1 + (lstsq (pairsJ r gcps)).c,
       (lstsq (pairsI r gcps)).m * (normJi r (project r g.xyz)).2 + (lstsq (pairsI r gcps)).c) := by
    intro g hg
    have h3 := project_withTforms r (fitAxis lstsq .shiftDrift (pairsJ r gcps)) (fitAxis lstsq .shiftDrift (pairsI r gcps))
      g.xyz (hu.gcps g hg) hu.samp hu.line
    rw [← h0] at h3
    exact h3
  constructor
  · have e : (gcps.map fun g => (project r g.xyz).1 * (g.ji.1 - (project r' g.xyz).1)) =
        gcps.map fun g => r.sampScale ^ 2 * ((normJi r (project r g.xyz)).1 * ((normJi r g.ji).1 -
          ((lstsq (pairsJ r gcps)).m * (normJi r (project r g.xyz)).1 + (lstsq (pairsJ r gcps)).c))) +
          r.sampOff * r.sampScale * ((normJi r g.ji).1 -
          ((lstsq (pairsJ r gcps)).m * (normJi r (project r g.xyz)).1 + (lstsq (pairsJ r gcps)).c)) := by
      apply List.map_congr_left
      intro g hg
      rw [← (Prod.mk.inj ((hp g hg) : (_, _) = (_, _))).1]
      have := hu.samp
      simp only [normJi]
      field_simp
      ring
    rw [e, List.sum_map_add, List.sum_map_mul_left, List.sum_map_mul_left]
    have e1 := h1.1
    have e2 := h1.2
    simp only [sres, sxres, pairsJ, List.map_map, Function.comp_def] at e1 e2
    simp only [pairsJ]
    rw [e1, e2]; ring
  · have e : (gcps.map fun g => (project r g.xyz).2 * (g.ji.2 - (project r' g.xyz).2)) =
        gcps.map fun g => r.lineScale ^ 2 * ((normJi r (project r g.xyz)).2 * ((normJi r g.ji).2 -
          ((lstsq (pairsI r gcps)).m * (normJi r (project r g.xyz)).2 + (lstsq (pairsI r gcps)).c))) +
          r.lineOff * r.lineScale * ((normJi r g.ji).2 -
          ((lstsq (pairsI r gcps)).m * (normJi r (project r g.xyz)).2 + (lstsq (pairsI r gcps)).c)) := by
      apply List.map_congr_left
      intro g hg
      rw [← (Prod.mk.inj ((hp g hg) : (_, _) = (_, _))).2]
      have := hu.line
      simp only [normJi]
      field_simp
      ring
    rw [e, List.sum_map_add, List.sum_map_mul_left, List.sum_map_mul_left]
    have e1 := h2.1
    have e2 := h2.2
    simp only [sres, sxres, pairsI, List.map_map, Function.comp_def] at e1 e2
    simp only [pairsI]
    rw [e1, e2]; ring

/-- C31: no other shift and drift of the original model has a smaller sum of squared residuals, along columns or
rows. -/
theorem C31_drift_optimal (lstsq : List (K × K) → Tform K) (hls : IsLstsq lstsq) (r r' : Rpc K)
    (gcps : List (Gcp K)) (h : refineRpc lstsq .shiftDrift r gcps = .ok r') (hu : Usable r gcps) (mj cj mi ci : K) :
    (gcps.map fun g => (g.ji.1 - (project r' g.xyz).1) ^ 2).sum ≤
      (gcps.map fun g => (g.ji.1 - (mj * (project r g.xyz).1 + cj)) ^ 2).sum ∧
    (gcps.map fun g => (g.ji.2 - (project r' g.xyz).2) ^ 2).sum ≤
      (gcps.map fun g => (g.ji.2 - (mi * (project r g.xyz).2 + ci)) ^ 2).sum := by
  have h0 := (refineRpc_ok h).1
  have hp : ∀ g ∈ gcps, normJi r (project r' g.xyz) =
      ((lstsq (pairsJ r gcps)).m * (normJi r (project r g.xyz)).1 + (lstsq (pairsJ r gcps)).c,
       (lstsq (pairsI r gcps)).m * (normJi r (project r g.xyz)).2 + (lstsq (pairsI r gcps)).c) := by
    intro g hg
    have h3 := project_withTforms r (fitAxis lstsq .shiftDrift (pairsJ r gcps)) (fitAxis lstsq .shiftDrift (pairsI r gcps))
      g.xyz (hu.gcps g hg) hu.samp hu.line
    rw [← h0] at h3
    exact h3
  have hs := hu.samp
  have hl := hu.line
  constructor
  · have h1 := (hls (pairsJ r gcps)).1 ⟨mj, (mj * r.sampOff + cj - r.sampOff) / r.sampScale⟩
    have e1 : (gcps.map fun g => (g.ji.1 - (project r' g.xyz).1) ^ 2).sum =
        r.sampScale ^ 2 * sse (pairsJ r gcps) (lstsq (pairsJ r gcps)) := by
      simp only [sse]
      generalize lstsq (pairsJ r gcps) = t at hp ⊢
      rw [pairsJ, List.map_map, ← List.sum_map_mul_left]
      congr 1
      apply List.map_congr_left
      intro g hg
      simp only [Function.comp_def]
      rw [← (Prod.mk.inj ((hp g hg) : (_, _) = (_, _))).1]
      simp only [normJi]
      field_simp
      ring
    have e2 : (gcps.map fun g => (g.ji.1 - (mj * (project r g.xyz).1 + cj)) ^ 2).sum =
        r.sampScale ^ 2 * sse (pairsJ r gcps) ⟨mj, (mj * r.sampOff + cj - r.sampOff) / r.sampScale⟩ := by
      simp only [sse]
      rw [pairsJ, List.map_map, ← List.sum_map_mul_left]
      congr 1
      apply List.map_congr_left
      intro g hg
      simp only [Function.comp_def, normJi]
      field_simp
      ring
    rw [e1, e2]
    exact mul_le_mul_of_nonneg_left h1 (by positivity)
  · have h1 := (hls (pairsI r gcps)).1 ⟨mi, (mi * r.lineOff + ci - r.lineOff) / r.lineScale⟩
    have e1 : (gcps.map fun g => (g.ji.2 - (project r' g.xyz).2) ^ 2).sum =
        r.lineScale ^ 2 * sse (pairsI r gcps) (lstsq (pairsI r gcps)) := by
      simp only [sse]
      generalize lstsq (pairsI r gcps) = t at hp ⊢
      rw [pairsI, List.map_map, ← List.sum_map_mul_left]
      congr 1
      apply List.map_congr_left
      intro g hg
      simp only [Function.comp_def]
      rw [← (Prod.mk.inj ((hp g hg) : (_, _) = (_, _))).2]
      simp only [normJi]
      field_simp
      ring
    have e2 : (gcps.map fun g => (g.ji.2 - (mi * (project r g.xyz).2 + ci)) ^ 2).sum =
        r.lineScale ^ 2 * sse (pairsI r gcps) ⟨mi, (mi * r.lineOff + ci - r.lineOff) / r.lineScale⟩ := by
      simp only [sse]
      rw [pairsI, List.map_map, ← List.sum_map_mul_left]
      congr 1
      apply List.map_congr_left
      intro g hg
      simp only [Function.comp_def, normJi]
      field_simp
      ring
    rw [e1, e2]
    exact mul_le_mul_of_nonneg_left h1 (by positivity)

theorem refit_id {lstsq : List (K × K) → Tform K} (hls : IsLstsq lstsq) (l : List (K × K)) (hl : l ≠ [])
    (hd : ∃ p ∈ l, ∃ q ∈ l, (lstsq l).m * p.1 + (lstsq l).c ≠ (lstsq l).m * q.1 + (lstsq l).c) :
    lstsq (l.map fun p => ((lstsq l).m * p.1 + (lstsq l).c, p.2)) = ⟨1, 0⟩ := by
  generalize ht : lstsq l = t at hd ⊢
  have hn := (normal_iff l hl t).1 (by rw [← ht]; exact (hls l).1)
  have hl' : (l.map fun p => (t.m * p.1 + t.c, p.2)) ≠ [] := by simpa using hl
  have e1 : sres (l.map fun p => (t.m * p.1 + t.c, p.2)) ⟨1, 0⟩ = sres l t := by
    simp [sres, Function.comp_def]
  have e2 : sxres (l.map fun p => (t.m * p.1 + t.c, p.2)) ⟨1, 0⟩ = t.m * sxres l t + t.c * sres l t := by
    simp only [sxres, sres, List.map_map, Function.comp_def, one_mul, add_zero]
    rw [← List.sum_map_mul_left, ← List.sum_map_mul_left, ← List.sum_map_add]
    congr 1
    apply List.map_congr_left
    intro p _
    ring
  refine lstsq_unique _ ?_ _ _ ((normal_iff _ hl' _).1 (hls _).1) ⟨by rw [e1, hn.1], by rw [e2, hn.1, hn.2]; ring⟩
  obtain ⟨p, hp, q, hq, hpq⟩ := hd
  exact ⟨_, List.mem_map.2 ⟨p, hp, rfl⟩, _, List.mem_map.2 ⟨q, hq, rfl⟩, hpq⟩

/-- C31, the part that holds for shift and drift: refining again with the same GCPs changes nothing, when the
refined projections of the GCPs are not all in one column or one row.  Missing: GCPs in one column or row
(`C31_drift_same_column_fails`). -/
theorem C31_drift_idempotent_partial (lstsq : List (K × K) → Tform K) (hls : IsLstsq lstsq) (r r' : Rpc K)
    (gcps : List (Gcp K)) (h : refineRpc lstsq .shiftDrift r gcps = .ok r') (hu : Usable r gcps)
    (hj : ∃ g ∈ gcps, ∃ g' ∈ gcps, (project r' g.xyz).1 ≠ (project r' g'.xyz).1)
    (hi : ∃ g ∈ gcps, ∃ g' ∈ gcps, (project r' g.xyz).2 ≠ (project r' g'.xyz).2) :
    refineRpc lstsq .shiftDrift r' gcps = .ok r' := by
  have h0 := (refineRpc_ok h).1
  have hlen : 2 ≤ gcps.length := by
    by_contra hc
    have := (C30_count lstsq r gcps).2.2 (by omega)
    rw [this] at h
    exact absurd h (by simp)
  have hp : ∀ g ∈ gcps, normJi r (project r' g.xyz) =
      ((lstsq (pairsJ r gcps)).m * (normJi r (project r g.xyz)).1 + (lstsq (pairsJ r gcps)).c,
       (lstsq (pairsI r gcps)).m * (normJi r (project r g.xyz)).2 + (lstsq (pairsI r gcps)).c) := by
    intro g hg
    have h3 := project_withTforms r (fitAxis lstsq .shiftDrift (pairsJ r gcps)) (fitAxis lstsq .shiftDrift (pairsI r gcps))
      g.xyz (hu.gcps g hg) hu.samp hu.line
    rw [← h0] at h3
    exact h3
  have h1 : lstsq (pairsJ r' gcps) = ⟨1, 0⟩ := by
    rw [pairs_refined_J h hu]
    refine refit_id hls _ (pairs_ne h).1 ?_
    obtain ⟨g, hg, g', hg', hne⟩ := hj
    refine ⟨_, List.mem_map.2 ⟨g, hg, rfl⟩, _, List.mem_map.2 ⟨g', hg', rfl⟩, ?_⟩
    have e := (Prod.mk.inj ((hp g hg) : (_, _) = (_, _))).1
    have e' := (Prod.mk.inj ((hp g' hg') : (_, _) = (_, _))).1
    simp only at e e' ⊢
    rw [← e, ← e']
    intro hc
    have := hu.samp
    field_simp at hc
    exact hne (by linarith)
  have h2 : lstsq (pairsI r' gcps) = ⟨1, 0⟩ := by
    rw [pairs_refined_I h hu]
    refine refit_id hls _ (pairs_ne h).2 ?_
    obtain ⟨g, hg, g', hg', hne⟩ := hi
    refine ⟨_, List.mem_map.2 ⟨g, hg, rfl⟩, _, List.mem_map.2 ⟨g', hg', rfl⟩, ?_⟩
    have e := (Prod.mk.inj ((hp g hg) : (_, _) = (_, _))).2
    have e' := (Prod.mk.inj ((hp g' hg') : (_, _) = (_, _))).2
    simp only at e e' ⊢
    rw [← e, ← e']
    intro hc
    have := hu.line
    field_simp at hc
    exact hne (by linarith)
  unfold refineRpc
  simp only
  rw [if_neg (by omega), fitAxis, fitAxis, h1, h2, refineNum_id, refineNum_id]

end Verif.RpcCam
