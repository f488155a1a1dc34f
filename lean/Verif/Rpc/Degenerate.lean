import Verif.Rpc.LeastSq

/-!
# C31: GCPs in one column
-/

set_option autoImplicit false
set_option linter.unusedSectionVars false

namespace Verif.RpcCam

variable {K : Type} [Field K] [LinearOrder K] [IsStrictOrderedRing K]

def sy (l : List (K × K)) : K := (l.map Prod.snd).sum

def sxy (l : List (K × K)) : K := (l.map fun p => p.1 * p.2).sum

/-- An implementation of `np.linalg.lstsq` for the two columns (x, 1). -/
def lstsqMin (l : List (K × K)) : Tform K :=
  let n : K := l.length
  let d := n * sxx l - sx l ^ 2
  if d = 0 then
    let a := sx l / n
    let b := sy l / n
    ⟨a * b / (a ^ 2 + 1), b / (a ^ 2 + 1)⟩
  else
    let m := (n * sxy l - sx l * sy l) / d
    ⟨m, (sy l - m * sx l) / n⟩

theorem sres_eq (l : List (K × K)) (t : Tform K) : sres l t = sy l - t.m * sx l - t.c * l.length := by
  induction l with
  | nil => simp [sres, sy, sx]
  | cons p l ih =>
    simp only [sres, sy, sx, List.map_cons, List.sum_cons, List.length_cons, Nat.cast_add, Nat.cast_one] at ih ⊢
    rw [ih]; ring

theorem sxres_eq (l : List (K × K)) (t : Tform K) : sxres l t = sxy l - t.m * sxx l - t.c * sx l := by
  induction l with
  | nil => simp [sxres, sxy, sx, sxx]
  | cons p l ih =>
    simp only [sxres, sxy, sx, sxx, List.map_cons, List.sum_cons] at ih ⊢
    rw [ih]; ring

theorem sum_dev (l : List (K × K)) (a : K) :
    (l.map fun p => (p.1 - a) ^ 2).sum = sxx l - 2 * a * sx l + a ^ 2 * l.length := by
  induction l with
  | nil => simp [sxx, sx]
  | cons p l ih =>
    simp only [sxx, sx, List.map_cons, List.sum_cons, List.length_cons, Nat.cast_add, Nat.cast_one] at ih ⊢
    rw [ih]; ring

theorem all_eq {l : List (K × K)} {a : K} (h : (l.map fun p => (p.1 - a) ^ 2).sum = 0) : ∀ p ∈ l, p.1 = a := by
  have h1 : sxx (l.map fun p => (p.1 - a, p.2)) = 0 := by
    unfold sxx; rw [List.map_map]; exact h
  intro p hp
  have := sxx_eq_zero h1 (p.1 - a, p.2) (List.mem_map.2 ⟨p, hp, rfl⟩)
  simp only at this
  linarith

/-- The assumption on `np.linalg.lstsq` can be met. -/
theorem isLstsq_lstsqMin : IsLstsq (lstsqMin (K := K)) := by
  intro l
  by_cases hl : l = []
  · subst hl
    simp only [lstsqMin, sse, sx, sy, sxx, List.map_nil, List.sum_nil, List.length_nil, Nat.cast_zero]
    refine ⟨fun _ => le_refl _, fun t _ => ?_⟩
    norm_num
    positivity
  have hn : (0 : K) < l.length := by exact_mod_cast List.length_pos_iff.2 hl
  by_cases hd : (l.length : K) * sxx l - sx l ^ 2 = 0
  · -- all coordinates are equal
    have hall : ∀ p ∈ l, p.1 = sx l / l.length := by
      apply all_eq
      rw [sum_dev]
      field_simp
      linear_combination hd
    obtain ⟨a, ha⟩ : ∃ a, a = sx l / l.length := ⟨_, rfl⟩
    obtain ⟨b, hb⟩ : ∃ b, b = sy l / l.length := ⟨_, rfl⟩
    have hsx : sx l = a * l.length := by rw [ha]; field_simp
    have hsy : sy l = b * l.length := by rw [hb]; field_simp
    have hls : lstsqMin l = ⟨a * b / (a ^ 2 + 1), b / (a ^ 2 + 1)⟩ := by
      simp only [lstsqMin, if_pos hd, ← ha, ← hb]
    have ha1 : (0 : K) < a ^ 2 + 1 := by positivity
    have hxr : ∀ t : Tform K, sxres l t = a * sres l t := by
      intro t
      unfold sxres sres
      rw [← List.sum_map_mul_left]
      congr 1
      apply List.map_congr_left
      intro p hp
      rw [hall p hp, ← ha]
    have hnorm : sres l (lstsqMin l) = 0 := by
      rw [sres_eq, hls, hsx, hsy]
      field_simp
      ring
    have hmin := (normal_iff l hl (lstsqMin l)).2 ⟨hnorm, by rw [hxr, hnorm, mul_zero]⟩
    refine ⟨hmin, fun t ht => ?_⟩
    have h1 := ((normal_iff l hl t).1 (fun t' => by rw [ht]; exact hmin t')).1
    rw [sres_eq, hsx, hsy] at h1
    have h2 : t.m * a + t.c = b := by
      have : (b - t.m * a - t.c) * l.length = 0 := by linear_combination h1
      rcases mul_eq_zero.1 this with h | h
      · linarith
      · exact absurd h hn.ne'
    rw [hls]
    simp only
    rw [div_pow, div_pow, ← add_div, div_le_iff₀ (by positivity)]
    have h3 : (a * b) ^ 2 + b ^ 2 = b ^ 2 * (a ^ 2 + 1) := by ring
    rw [h3, pow_two (a ^ 2 + 1), ← mul_assoc]
    apply mul_le_mul_of_nonneg_right _ ha1.le
    rw [← h2]
    have : 0 ≤ (t.m - a * t.c) ^ 2 := by positivity
    nlinarith
  · have hls : lstsqMin l = ⟨(l.length * sxy l - sx l * sy l) / (l.length * sxx l - sx l ^ 2),
        (sy l - (l.length * sxy l - sx l * sy l) / (l.length * sxx l - sx l ^ 2) * sx l) / l.length⟩ := by
      simp only [lstsqMin, if_neg hd]
    have hnorm : sres l (lstsqMin l) = 0 ∧ sxres l (lstsqMin l) = 0 := by
      rw [sres_eq, sxres_eq, hls]
      have hn' := hn.ne'
      constructor
      · field_simp; ring
      · simp only
        generalize hdd : (l.length : K) * sxx l - sx l ^ 2 = d at hd
        have : sxx l = (d + sx l ^ 2) / l.length := by rw [← hdd]; field_simp; ring
        rw [this]
        field_simp
        ring
    have hmin := (normal_iff l hl (lstsqMin l)).2 hnorm
    refine ⟨hmin, fun t ht => ?_⟩
    have h1 := (normal_iff l hl t).1 (fun t' => by rw [ht]; exact hmin t')
    have hdist : ∃ p ∈ l, ∃ q ∈ l, p.1 ≠ q.1 := by
      by_contra hc
      push Not at hc
      obtain ⟨p, hp⟩ := List.exists_mem_of_ne_nil l hl
      apply hd
      have h3 : (l.map fun q => (q.1 - p.1) ^ 2).sum = 0 := by
        apply List.sum_eq_zero
        intro x hx
        obtain ⟨q, hq, rfl⟩ := List.mem_map.1 hx
        rw [hc q hq p hp]; ring
      rw [sum_dev] at h3
      have h4 : sx l = p.1 * l.length := by
        unfold sx
        have : l.map Prod.fst = l.map fun _ => p.1 := List.map_congr_left fun q hq => hc q hq p hp
        rw [this]; simp [mul_comm]
      rw [h4] at h3 ⊢
      linear_combination (l.length : K) * h3
    rw [lstsq_unique l hdist t _ h1 hnorm]

/-- Two GCPs in one column, that the model `exRpc` fits exactly. -/
def exGcps : List (Gcp ℚ) := [⟨(15, 7), (1, 0, 0)⟩, ⟨(15, 27), (1, 1, 0)⟩]

/-- C31: with GCPs in one column, the shift and drift method changes a model that fits them exactly: points in
other columns move (here by half the sample scale), and refining again moves them further. -/
theorem C31_drift_same_column_fails :
    (∀ g ∈ exGcps, project exRpc g.xyz = g.ji) ∧
    ∃ r' r'' : Rpc ℚ, refineRpc lstsqMin .shiftDrift exRpc exGcps = .ok r' ∧
      project exRpc (0, 0, 0) = (5, 7) ∧ project r' (0, 0, 0) = (10, 7) ∧
      refineRpc lstsqMin .shiftDrift r' exGcps = .ok r'' ∧ project r'' (0, 0, 0) = (25 / 2, 7) := by
  refine ⟨by decide +kernel, ?_⟩
  refine ⟨_, _, rfl, by decide +kernel, by decide +kernel, rfl, by decide +kernel⟩

example : Usable exRpc exGcps := by
  refine ⟨by decide +kernel, by decide +kernel, ?_⟩
  intro g hg
  simp only [exGcps, List.mem_cons, List.not_mem_nil, or_false] at hg
  rcases hg with rfl | rfl <;> exact ⟨by decide +kernel, by decide +kernel, by decide +kernel, by decide +kernel, by decide +kernel⟩

-- three GCPs that do not fit exactly
example : (refineRpc lstsqMin .shiftDrift exRpc
    [⟨(15, 7), (1, 0, 0)⟩, ⟨(16, 27), (1, 1, 0)⟩, ⟨(30, 48), (2, 2, 0)⟩]).map (fun r => project r (0, 0, 0)) =
    .ok (1, 41 / 6) := by decide +kernel

end Verif.RpcCam
