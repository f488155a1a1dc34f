import Verif.Rpc.Degenerate
import Verif.Factory.Rpc

/-!
# C115: refining again
-/

set_option autoImplicit false
set_option linter.unusedSectionVars false

namespace Verif.RpcCam

variable {K : Type} [Field K] [LinearOrder K] [IsStrictOrderedRing K]

/-- Refinements one after the other, as calls of `RpcCameras.refine` (orthority/factory.py:351-358) make them for one image. -/
def refineSeq (lstsq : List (K × K) → Tform K) : Rpc K → List (Method × List (Gcp K)) → Res (Rpc K)
  | r, [] => .ok r
  | r, (m, g) :: hist => refineRpc lstsq m r g >>= fun r' => refineSeq lstsq r' hist

/-! ## Transforms -/

/-- First `t`, then `u`. -/
def Tform.after (u t : Tform K) : Tform K := ⟨u.m * t.m, u.m * t.c + u.c⟩

theorem refineNum_after (u t : Tform K) (num den : Fin 20 → K) :
    refineNum u (refineNum t num den) den = refineNum (u.after t) num den := by
  funext i
  simp only [refineNum, Tform.after]
  ring

theorem withTforms_after (r : Rpc K) (tj ti uj ui : Tform K) :
    withTforms (withTforms r tj ti) uj ui = withTforms r (uj.after tj) (ui.after ti) := by
  simp only [withTforms, refineNum_after]

/-- A model that was refined any number of times is the original with a transform of each axis, a shift if all refinements were. -/
theorem refineSeq_tforms {lstsq : List (K × K) → Tform K} {r r' : Rpc K} {hist : List (Method × List (Gcp K))}
    (h : refineSeq lstsq r hist = .ok r') :
    ∃ tj ti, r' = withTforms r tj ti ∧ ((∀ q ∈ hist, q.1 = .shift) → tj.m = 1 ∧ ti.m = 1) := by
  induction hist generalizing r with
  | nil =>
    simp only [refineSeq, Except.ok.injEq] at h
    subst h
    exact ⟨⟨1, 0⟩, ⟨1, 0⟩, by simp [withTforms, refineNum_id], fun _ => ⟨rfl, rfl⟩⟩
  | cons q hist ih =>
    obtain ⟨m, g⟩ := q
    simp only [refineSeq] at h
    cases h1 : refineRpc lstsq m r g with
    | error e => rw [h1] at h; cases h
    | ok r1 =>
      rw [h1, Res.ok_bind] at h
      obtain ⟨tj, ti, h2, h3⟩ := ih h
      rw [(refineRpc_ok h1).1, withTforms_after] at h2
      refine ⟨_, _, h2, fun hq => ?_⟩
      obtain ⟨h4, h5⟩ := h3 fun q hq' => hq q (List.mem_cons_of_mem _ hq')
      have h6 : m = .shift := hq (m, g) List.mem_cons_self
      subst h6
      simp [Tform.after, fitAxis, h4, h5]

theorem pairs_withTforms (r : Rpc K) (tj ti : Tform K) (gcps : List (Gcp K)) (hu : Usable r gcps) :
    pairsJ (withTforms r tj ti) gcps = (pairsJ r gcps).map (fun p => (tj.m * p.1 + tj.c, p.2)) ∧
    pairsI (withTforms r tj ti) gcps = (pairsI r gcps).map (fun p => (ti.m * p.1 + ti.c, p.2)) := by
  constructor
  · simp only [pairsJ, List.map_map]
    apply List.map_congr_left
    intro g hg
    have := project_withTforms r tj ti g.xyz (hu.gcps g hg) hu.samp hu.line
    have h1 := congrArg Prod.fst this
    simp only [normJi, withTforms, Function.comp] at h1 ⊢
    rw [h1]
  · simp only [pairsI, List.map_map]
    apply List.map_congr_left
    intro g hg
    have := project_withTforms r tj ti g.xyz (hu.gcps g hg) hu.samp hu.line
    have h1 := congrArg Prod.snd this
    simp only [normJi, withTforms, Function.comp] at h1 ⊢
    rw [h1]

theorem shift_after (l : List (K × K)) (hl : l ≠ []) (t : Tform K) (ht : t.m = 1) (lstsq : List (K × K) → Tform K) :
    (fitAxis lstsq .shift (l.map fun p => (t.m * p.1 + t.c, p.2))).after t = fitAxis lstsq .shift l := by
  have hn : (l.length : K) ≠ 0 := by
    rw [Nat.cast_ne_zero]
    exact fun h => hl (List.length_eq_zero_iff.1 h)
  have e : (l.map fun p => p.2 - (p.1 + t.c)).sum = (l.map fun p => p.2 - p.1).sum - l.length * t.c := by
    clear hn hl
    induction l with
    | nil => simp
    | cons p l ih =>
      simp only [List.map_cons, List.sum_cons, List.length_cons, Nat.cast_add, Nat.cast_one, ih]
      ring
  simp only [fitAxis, Tform.after, List.map_map, Function.comp_def, List.length_map, ht, one_mul, Tform.mk.injEq, true_and, e]
  field_simp
  ring

theorem lstsq_after {lstsq : List (K × K) → Tform K} (hls : IsLstsq lstsq) (l : List (K × K)) (t : Tform K)
    (hd : ∃ p ∈ l, ∃ q ∈ l, t.m * p.1 + t.c ≠ t.m * q.1 + t.c) :
    (lstsq (l.map fun p => (t.m * p.1 + t.c, p.2))).after t = lstsq l := by
  obtain ⟨p, hp, q, hq, hpq⟩ := hd
  have hl : l ≠ [] := List.ne_nil_of_mem hp
  have hm : t.m ≠ 0 := by
    intro h
    rw [h] at hpq
    simp at hpq
  have hne : p.1 ≠ q.1 := fun h => hpq (by rw [h])
  have h1 := (normal_iff l hl _).1 (hls l).1
  have hl' : (l.map fun p => (t.m * p.1 + t.c, p.2)) ≠ [] := by simpa using hl
  have h2 := (normal_iff _ hl' _).1 (hls (l.map fun p => (t.m * p.1 + t.c, p.2))).1
  generalize lstsq (l.map fun p => (t.m * p.1 + t.c, p.2)) = u at h2 ⊢
  have e1 : sres (l.map fun p => (t.m * p.1 + t.c, p.2)) u = sres l (u.after t) := by
    simp only [sres, List.map_map, Function.comp_def, Tform.after]
    congr 1
    apply List.map_congr_left
    intro x _
    ring
  have e2 : sxres (l.map fun p => (t.m * p.1 + t.c, p.2)) u = t.m * sxres l (u.after t) + t.c * sres l (u.after t) := by
    clear e1 h1 h2 hl hl' hp hq hls
    simp only [sxres, sres, List.map_map, Function.comp_def, Tform.after]
    induction l with
    | nil => simp
    | cons x l ih =>
      simp only [List.map_cons, List.sum_cons, ih]
      ring
  rw [e1, e2] at h2
  refine lstsq_unique l ⟨p, hp, q, hq, hne⟩ _ _ ⟨h2.1, ?_⟩ h1
  have h3 := h2.2
  rw [h2.1, mul_zero, add_zero] at h3
  exact (mul_eq_zero.1 h3).resolve_left hm

/-! ## Theorems -/

/-- C115, the part that holds of shifts: refining a model by shift, after any number of refinements by shift, with any GCPs, gives the
model that refining the original gives, or the same error. -/
theorem C115_shift_partial (lstsq : List (K × K) → Tform K) (r r' : Rpc K) (hist : List (Method × List (Gcp K)))
    (hshift : ∀ q ∈ hist, q.1 = .shift) (h : refineSeq lstsq r hist = .ok r') (gcps : List (Gcp K)) (hu : Usable r gcps) :
    refineRpc lstsq .shift r' gcps = refineRpc lstsq .shift r gcps := by
  obtain ⟨tj, ti, rfl, ht⟩ := refineSeq_tforms h
  obtain ⟨hj, hi⟩ := ht hshift
  unfold refineRpc
  by_cases hn : gcps.length < 1
  · simp only [if_pos hn]
  · have hne : gcps ≠ [] := by rintro rfl; simp at hn
    have hpj : pairsJ r gcps ≠ [] := by simpa [pairsJ] using hne
    have hpi : pairsI r gcps ≠ [] := by simpa [pairsI] using hne
    simp only [if_neg hn, (pairs_withTforms r tj ti gcps hu).1, (pairs_withTforms r tj ti gcps hu).2, Except.ok.injEq]
    have := withTforms_after r tj ti (fitAxis lstsq .shift ((pairsJ r gcps).map fun p => (tj.m * p.1 + tj.c, p.2)))
      (fitAxis lstsq .shift ((pairsI r gcps).map fun p => (ti.m * p.1 + ti.c, p.2)))
    rw [shift_after _ hpj _ hj, shift_after _ hpi _ hi] at this
    exact this

/-- C115, the part that holds of shift and drift: refining a model by shift and drift, after any number of refinements by either method,
with any GCPs, gives the model that refining the original gives, when the projections of the GCPs before are not all in one column or one
row.  Missing: GCPs in one column or row (`C31_drift_same_column_fails`). -/
theorem C115_drift_partial (lstsq : List (K × K) → Tform K) (hls : IsLstsq lstsq) (r r' : Rpc K) (hist : List (Method × List (Gcp K)))
    (h : refineSeq lstsq r hist = .ok r') (gcps : List (Gcp K)) (hu : Usable r gcps)
    (hj : ∃ g ∈ gcps, ∃ g' ∈ gcps, (project r' g.xyz).1 ≠ (project r' g'.xyz).1)
    (hi : ∃ g ∈ gcps, ∃ g' ∈ gcps, (project r' g.xyz).2 ≠ (project r' g'.xyz).2) :
    refineRpc lstsq .shiftDrift r' gcps = refineRpc lstsq .shiftDrift r gcps := by
  obtain ⟨tj, ti, rfl, -⟩ := refineSeq_tforms h
  have hnj : ∀ g ∈ gcps, ((project (withTforms r tj ti) g.xyz).1 - r.sampOff) / r.sampScale =
      tj.m * ((normJi r (project r g.xyz)).1) + tj.c := fun g hg =>
    congrArg Prod.fst (project_withTforms r tj ti g.xyz (hu.gcps g hg) hu.samp hu.line)
  have hni : ∀ g ∈ gcps, ((project (withTforms r tj ti) g.xyz).2 - r.lineOff) / r.lineScale =
      ti.m * ((normJi r (project r g.xyz)).2) + ti.c := fun g hg =>
    congrArg Prod.snd (project_withTforms r tj ti g.xyz (hu.gcps g hg) hu.samp hu.line)
  have hdj : ∃ p ∈ pairsJ r gcps, ∃ q ∈ pairsJ r gcps, tj.m * p.1 + tj.c ≠ tj.m * q.1 + tj.c := by
    obtain ⟨g, hg, g', hg', hne⟩ := hj
    refine ⟨_, List.mem_map.2 ⟨g, hg, rfl⟩, _, List.mem_map.2 ⟨g', hg', rfl⟩, fun he => hne ?_⟩
    simp only at he
    rw [← hnj g hg, ← hnj g' hg', div_left_inj' hu.samp] at he
    exact sub_left_injective he
  have hdi : ∃ p ∈ pairsI r gcps, ∃ q ∈ pairsI r gcps, ti.m * p.1 + ti.c ≠ ti.m * q.1 + ti.c := by
    obtain ⟨g, hg, g', hg', hne⟩ := hi
    refine ⟨_, List.mem_map.2 ⟨g, hg, rfl⟩, _, List.mem_map.2 ⟨g', hg', rfl⟩, fun he => hne ?_⟩
    simp only at he
    rw [← hni g hg, ← hni g' hg', div_left_inj' hu.line] at he
    exact sub_left_injective he
  unfold refineRpc
  by_cases hn : gcps.length < 2
  · simp only [if_pos hn]
  · simp only [if_neg hn, (pairs_withTforms r tj ti gcps hu).1, (pairs_withTforms r tj ti gcps hu).2, Except.ok.injEq, fitAxis]
    have := withTforms_after r tj ti (lstsq ((pairsJ r gcps).map fun p => (tj.m * p.1 + tj.c, p.2)))
      (lstsq ((pairsI r gcps).map fun p => (ti.m * p.1 + ti.c, p.2)))
    rw [lstsq_after hls _ _ hdj, lstsq_after hls _ _ hdi] at this
    exact this

/-- Two GCPs that the model `exRpc` does not fit: the columns are twice as far apart as it says. -/
def farGcps : List (Gcp ℚ) := [⟨(5, 7), (0, 0, 0)⟩, ⟨(25, 27), (1, 1, 0)⟩]

/-- Where C115 fails: refining by shift, after a refinement by shift and drift, keeps the drift, so that the model is not the one that
refining the original by shift gives. -/
theorem C115_mixed_fails :
    ∃ r' r'' r₁ : Rpc ℚ, refineRpc lstsqMin .shiftDrift exRpc farGcps = .ok r' ∧ refineRpc lstsqMin .shift r' farGcps = .ok r'' ∧
      refineRpc lstsqMin .shift exRpc farGcps = .ok r₁ ∧ project r'' (0, 0, 0) = (5, 7) ∧ project r₁ (0, 0, 0) = (10, 7) := by
  refine ⟨_, _, _, rfl, rfl, rfl, by decide +kernel, by decide +kernel⟩

theorem farGcps_usable : Usable exRpc farGcps := by
  refine ⟨by decide +kernel, by decide +kernel, ?_⟩
  intro g hg
  simp only [farGcps, List.mem_cons, List.not_mem_nil, or_false] at hg
  rcases hg with rfl | rfl <;> exact ⟨by decide +kernel, by decide +kernel, by decide +kernel, by decide +kernel, by decide +kernel⟩

/-- `C115_shift_partial` and `C115_drift_partial` for a model that was refined with other GCPs before. -/
example : ∃ r', refineSeq lstsqMin exRpc [(.shift, [⟨(9, 9), (0, 0, 0)⟩]), (.shift, [⟨(8, 9), (1, 0, 0)⟩])] = .ok r' ∧
    refineRpc lstsqMin .shift r' farGcps = refineRpc lstsqMin .shift exRpc farGcps ∧ project r' (0, 0, 0) ≠ project exRpc (0, 0, 0) :=
  ⟨_, rfl, C115_shift_partial lstsqMin exRpc _ [(.shift, [⟨(9, 9), (0, 0, 0)⟩]), (.shift, [⟨(8, 9), (1, 0, 0)⟩])] (by simp) rfl farGcps
    farGcps_usable, by decide +kernel⟩

example : ∃ r', refineSeq lstsqMin exRpc [(.shift, [⟨(9, 9), (0, 0, 0)⟩]), (.shiftDrift, [⟨(9, 9), (0, 0, 0)⟩, ⟨(14, 20), (1, 2, 0)⟩])] = .ok r' ∧
    refineRpc lstsqMin .shiftDrift r' farGcps = refineRpc lstsqMin .shiftDrift exRpc farGcps ∧
    project r' (1, 1, 0) ≠ project exRpc (1, 1, 0) :=
  ⟨_, rfl, C115_drift_partial lstsqMin isLstsq_lstsqMin exRpc _
    [(.shift, [⟨(9, 9), (0, 0, 0)⟩]), (.shiftDrift, [⟨(9, 9), (0, 0, 0)⟩, ⟨(14, 20), (1, 2, 0)⟩])] rfl farGcps
    farGcps_usable ⟨⟨(5, 7), (0, 0, 0)⟩, by simp [farGcps], ⟨(25, 27), (1, 1, 0)⟩, by simp [farGcps], by decide +kernel⟩
    ⟨⟨(5, 7), (0, 0, 0)⟩, by simp [farGcps], ⟨(25, 27), (1, 1, 0)⟩, by simp [farGcps], by decide +kernel⟩, by decide +kernel⟩

theorem refineSeq_append (lstsq : List (K × K) → Tform K) (r : Rpc K) (a b : List (Method × List (Gcp K))) :
    refineSeq lstsq r (a ++ b) = refineSeq lstsq r a >>= fun r' => refineSeq lstsq r' b := by
  induction a generalizing r with
  | nil => rfl
  | cons q a ih =>
    simp only [List.cons_append, refineSeq]
    cases refineRpc lstsq q.1 r q.2 with
    | error e => rfl
    | ok r' => simp only [Res.ok_bind, ih]

end Verif.RpcCam

namespace Verif.Factory

open Verif.RpcCam

variable {K : Type} [Field K] [LinearOrder K] [IsStrictOrderedRing K] {M C : Type}

/-- An RPC camera factory with its GCPs: `RpcCameras._gcp_dict`, orthority/factory.py:276. -/
structure WithGcps (M R G C : Type) where
  state : RpcState M R C
  gcps : Option (Dict String G)

/-- A call for a factory: `refine` keeps its GCPs before it refines (orthority/factory.py:342-349), however it ends. -/
def WithGcps.step {M R G C : Type} (env : RpcEnv M R G C) (w : WithGcps M R G C) : Call G → WithGcps M R G C
  | .get f => ⟨env.step w.state (.get f), w.gcps⟩
  | .refine g => ⟨env.step w.state (.refine g), some g⟩

/-- State after a history of calls. -/
def WithGcps.run {M R G C : Type} (env : RpcEnv M R G C) (w : WithGcps M R G C) (hist : List (Call G)) : WithGcps M R G C :=
  hist.foldl (WithGcps.step env) w

/-- A factory that refines by shift, the default method (orthority/fit.py:39). -/
def Shifts (lstsq : List (K × K) → Tform K) (env : RpcEnv M (Rpc K) (List (RpcCam.Gcp K)) C) : Prop :=
  (∀ r g, env.refine r g = refineRpc lstsq .shift r g) ∧ ∀ g, env.truthy g = true ↔ g ≠ []

/-- Parameters of a factory, made of those that it started with by shifts. -/
def Shifted (lstsq : List (K × K) → Tform K) (d d' : Dict String (RpcParam M (Rpc K))) : Prop :=
  ∀ k p', Dict.get? d' k = some p' → ∃ p hist, Dict.get? d k = some p ∧ p'.other = p.other ∧
    (∀ q ∈ hist, q.1 = .shift) ∧ refineSeq lstsq p.rpc hist = .ok p'.rpc

theorem refineLoop_shifted {lstsq : List (K × K) → Tform K} {env : RpcEnv M (Rpc K) (List (RpcCam.Gcp K)) C} (he : Shifts lstsq env)
    (d : Dict String (RpcParam M (Rpc K))) (g : Dict String (List (RpcCam.Gcp K))) (ks : List String) (s : RpcState M (Rpc K) C)
    (hs : Shifted lstsq d s.params) : Shifted lstsq d (env.refineLoop g ks s).2.params := by
  induction ks generalizing s with
  | nil => exact hs
  | cons k ks ih =>
    unfold RpcEnv.refineLoop
    cases h1 : env.gcpsOf g k with
    | none => exact ih s hs
    | some gs =>
      simp only
      cases h2 : Dict.get? s.params k with
      | none => exact hs
      | some p =>
        simp only
        cases h3 : env.refine p.rpc gs with
        | error e => exact hs
        | ok r =>
          simp only
          apply ih
          intro k' p' hp'
          simp only [Dict.get?_set] at hp'
          by_cases hk : k = k'
          · rw [if_pos hk, Option.some.injEq] at hp'
            subst hp' hk
            obtain ⟨p0, hist, h4, h5, h6, h7⟩ := hs k p h2
            refine ⟨p0, hist ++ [(.shift, gs)], h4, h5, ?_, ?_⟩
            · intro q hq
              rcases List.mem_append.1 hq with hq | hq
              · exact h6 q hq
              · simp at hq
                rw [hq]
            · rw [refineSeq_append, h7, Res.ok_bind]
              simp only [refineSeq]
              rw [← he.1, h3]
              rfl
          · rw [if_neg hk] at hp'
            exact hs k' p' hp'

theorem run_shifted {lstsq : List (K × K) → Tform K} {env : RpcEnv M (Rpc K) (List (RpcCam.Gcp K)) C} (he : Shifts lstsq env)
    (d : Dict String (RpcParam M (Rpc K))) (hist : List (Call (List (RpcCam.Gcp K)))) (w : WithGcps M (Rpc K) (List (RpcCam.Gcp K)) C)
    (hs : Shifted lstsq d w.state.params) : Shifted lstsq d (w.run env hist).state.params := by
  induction hist generalizing w with
  | nil => exact hs
  | cons c hist ih =>
    apply ih
    cases c with
    | refine g => exact refineLoop_shifted he d g _ _ hs
    | get f =>
      have : (w.step env (.get f)).state.params = w.state.params := by
        simp only [WithGcps.step, RpcEnv.step, RpcEnv.get]
        split
        · rfl
        · split
          · rfl
          · split <;> rfl
      rw [this]
      exact hs

/-- C115, the part that holds of factories: after any history of calls, some of which may have raised, and a `refine` that returns, the
model of each image with GCPs in that call is the original refined with them, and these are the GCPs that `write_param` writes beside the
models.  Missing: images that have GCPs in an earlier call only (`C115_saved_fails`). -/
theorem C115_saved_partial (lstsq : List (K × K) → Tform K) (env : RpcEnv M (Rpc K) (List (RpcCam.Gcp K)) C) (he : Shifts lstsq env)
    (d : Dict String (RpcParam M (Rpc K))) (hd : PlainKeys env d) (hist : List (Call (List (RpcCam.Gcp K))))
    (g : Dict String (List (RpcCam.Gcp K))) (w : WithGcps M (Rpc K) (List (RpcCam.Gcp K)) C)
    (hw : w = WithGcps.run env ⟨⟨d, []⟩, none⟩ hist) (s' : RpcState M (Rpc K) C) (h : env.refineAll w.state g = (.ok (), s')) :
    (w.step env (.refine g)).gcps = some g ∧
    ∀ k p gs, Dict.get? d k = some p → GcpsFor env g k gs → gs ≠ [] → Usable p.rpc gs →
      ∃ r, refineRpc lstsq .shift p.rpc gs = .ok r ∧ Dict.get? (w.step env (.refine g)).state.params k = some ⟨p.other, r⟩ := by
  refine ⟨rfl, fun k p gs hp hg hne hu => ?_⟩
  have hst : w.state = env.run ⟨d, []⟩ hist := by
    rw [hw]
    clear hw h
    have : ∀ (hist : List (Call (List (RpcCam.Gcp K)))) (w : WithGcps M (Rpc K) (List (RpcCam.Gcp K)) C),
        (w.run env hist).state = env.run w.state hist := by
      intro hist
      induction hist with
      | nil => intro w; rfl
      | cons c hist ih =>
        intro w
        have : (w.run env (c :: hist)) = (w.step env c).run env hist := rfl
        rw [this, ih]
        cases c <;> rfl
    exact this hist _
  have hinv := run_inv env ⟨d, []⟩ ⟨hd, fun _ _ _ _ h => by simp [Dict.get?_nil] at h⟩ hist
  have hsh : Shifted lstsq d w.state.params := by
    rw [hw]
    refine run_shifted he d hist _ ?_
    intro k p hp
    exact ⟨p, [], hp, rfl, by simp, rfl⟩
  rw [← hst] at hinv
  cases hq : Dict.get? w.state.params k with
  | none =>
    rw [Dict.get?_none, hinv.2] at hq
    exact absurd (List.mem_map.2 ⟨_, Dict.mem_of_get? hp, rfl⟩) hq
  | some q =>
    obtain ⟨p0, hist', h1, h2, h3, h4⟩ := hsh k q hq
    rw [hp, Option.some.injEq] at h1
    subst h1
    obtain ⟨r, h5, h6⟩ := (C28_refine_params env w.state s' hinv.1.keys.1 g h k q hq).1 gs hg ((he.2 gs).2 hne)
    rw [he.1, C115_shift_partial lstsq p.rpc q.rpc hist' h3 h4 gs hu] at h5
    refine ⟨r, h5, ?_⟩
    simp only [WithGcps.step, RpcEnv.step, h, h6, h2]

/-- A factory of the model `exRpc`. -/
def exShift : RpcEnv Unit (Rpc ℚ) (List (RpcCam.Gcp ℚ)) (Rpc ℚ) where
  name f := f
  stem f := f
  create p := .ok p.rpc
  refine r g := refineRpc lstsqMin .shift r g
  truthy g := g ≠ []

/-- Where C115 fails: when two images are refined one after the other, both models are refined, but only the GCPs of the second are kept
for `write_param`; with these, the first model would not be refined. -/
theorem C115_saved_fails :
    let d : Dict String (RpcParam Unit (Rpc ℚ)) := [("a.tif", ⟨(), RpcCam.exRpc⟩), ("b.tif", ⟨(), RpcCam.exRpc⟩)]
    let ga : Dict String (List (RpcCam.Gcp ℚ)) := [("a.tif", [⟨(9, 9), (0, 0, 0)⟩])]
    let gb : Dict String (List (RpcCam.Gcp ℚ)) := [("b.tif", [⟨(6, 6), (0, 0, 0)⟩])]
    let at0 (w : WithGcps Unit (Rpc ℚ) (List (RpcCam.Gcp ℚ)) (Rpc ℚ)) := w.state.params.map fun p => project p.2.rpc (0, 0, 0)
    (exShift.refineAll ⟨d, []⟩ ga).1 = .ok () ∧ (exShift.refineAll (exShift.refineAll ⟨d, []⟩ ga).2 gb).1 = .ok () ∧
    (WithGcps.run exShift ⟨⟨d, []⟩, none⟩ [.refine ga, .refine gb]).gcps = some gb ∧
    at0 (WithGcps.run exShift ⟨⟨d, []⟩, none⟩ [.refine ga, .refine gb]) = [(9, 9), (6, 6)] ∧
    at0 (WithGcps.run exShift ⟨⟨d, []⟩, none⟩ [.refine gb]) = [(5, 7), (6, 6)] :=
  ⟨rfl, rfl, rfl, by decide +kernel, by decide +kernel⟩

/-- `C115_saved_partial` after a refinement with other GCPs. -/
example (w : WithGcps Unit (Rpc ℚ) (List (RpcCam.Gcp ℚ)) (Rpc ℚ))
    (hw : w = WithGcps.run exShift ⟨⟨[("a.tif", ⟨(), RpcCam.exRpc⟩)], []⟩, none⟩ [.refine [("a.tif", [⟨(9, 9), (0, 0, 0)⟩])], .get "a.tif"]) :
    ∃ r, refineRpc lstsqMin .shift RpcCam.exRpc farGcps = .ok r ∧
      Dict.get? (w.step exShift (.refine [("a.tif", farGcps)])).state.params "a.tif" = some ⟨(), r⟩ :=
  (C115_saved_partial lstsqMin exShift ⟨fun _ _ => rfl, fun g => by simp [exShift]⟩ [("a.tif", ⟨(), RpcCam.exRpc⟩)]
    ⟨by simp [Dict.Ok], fun _ _ => rfl⟩ [.refine [("a.tif", [⟨(9, 9), (0, 0, 0)⟩])], .get "a.tif"] [("a.tif", farGcps)] w hw
    (exShift.refineAll w.state [("a.tif", farGcps)]).2 (by subst hw; rfl)).2 "a.tif" ⟨(), RpcCam.exRpc⟩ farGcps rfl (.inl rfl)
    (by simp [farGcps]) farGcps_usable

end Verif.Factory
