import Verif.Rpc.Model
import Mathlib.Tactic.Ring
import Mathlib.Tactic.FieldSimp
import Mathlib.Tactic.Linarith
import Mathlib.Tactic.LinearCombination
import Mathlib.Algebra.Order.Field.Basic

set_option autoImplicit false
set_option linter.unusedSectionVars false

namespace Verif.RpcCam

variable {K : Type} [Field K] [DecidableEq K]

/-! ## C29 -/

/-- Exponents of (L, P, H) (longitude, latitude, height) in the 20 terms of the RPC00B polynomial, in the order of
http://geotiff.maptools.org/rpc_prop.html:
1, L, P, H, LP, LH, PH, L², P², H², PLH, L³, LP², LH², L²P, P³, PH², L²H, P²H, H³. -/
def rpc00b : Fin 20 → ℕ × ℕ × ℕ :=
  ![(0, 0, 0), (1, 0, 0), (0, 1, 0), (0, 0, 1), (1, 1, 0), (1, 0, 1), (0, 1, 1), (2, 0, 0), (0, 2, 0), (0, 0, 2),
    (1, 1, 1), (3, 0, 0), (1, 2, 0), (1, 0, 2), (2, 1, 0), (0, 3, 0), (0, 1, 2), (2, 0, 1), (0, 2, 1), (0, 0, 3)]

/-- Value of the RPC00B polynomial. -/
def polySpec (L P H : K) (c : Fin 20 → K) : K :=
  ∑ i, c i * (L ^ (rpc00b i).1 * P ^ (rpc00b i).2.1 * H ^ (rpc00b i).2.2)

theorem sum20 (f : Fin 20 → K) : ∑ i, f i = f 0 + f 1 + f 2 + f 3 + f 4 + f 5 + f 6 + f 7 + f 8 + f 9 + f 10 +
    f 11 + f 12 + f 13 + f 14 + f 15 + f 16 + f 17 + f 18 + f 19 := by
  simp only [Fin.sum_univ_castSucc, Finset.univ_eq_empty, Finset.sum_empty, zero_add]
  rfl

/-- C29: the Horner form is the RPC00B polynomial. -/
theorem C29_poly (L P H : K) (c : Fin 20 → K) : poly L P H c = polySpec L P H c := by
  simp only [poly, polySpec, sum20, rpc00b, Matrix.cons_val]
  ring

/-- Value of a rational polynomial of normalised coordinates. -/
def ratio (r : Rpc K) (num den : Fin 20 → K) (L P H : K) : K :=
  polySpec ((L - r.longOff) / r.longScale) ((P - r.latOff) / r.latScale) ((H - r.heightOff) / r.heightScale) num /
  polySpec ((L - r.longOff) / r.longScale) ((P - r.latOff) / r.latScale) ((H - r.heightOff) / r.heightScale) den

/-- The model can be evaluated at a point: scales and denominators are not zero. -/
structure Defined (r : Rpc K) (p : K × K × K) : Prop where
  long : r.longScale ≠ 0
  lat : r.latScale ≠ 0
  height : r.heightScale ≠ 0
  samp : polySpec ((p.1 - r.longOff) / r.longScale) ((p.2.1 - r.latOff) / r.latScale)
    ((p.2.2 - r.heightOff) / r.heightScale) r.sampDen ≠ 0
  line : polySpec ((p.1 - r.longOff) / r.longScale) ((p.2.1 - r.latOff) / r.latScale)
    ((p.2.2 - r.heightOff) / r.heightScale) r.lineDen ≠ 0

theorem poly_val (x y z : K) (c : Fin 20 → K) :
    poly (Fl.val x) (.val y) (.val z) (fun i => .val (c i)) = .val (poly x y z c) := rfl

theorem poly_nan (x y z : Fl K) (c : Fin 20 → Fl K) (h : x = .nan ∨ y = .nan ∨ z = .nan) :
    poly x y z c = .nan := by
  rcases h with rfl | rfl | rfl <;> simp [poly]

theorem project_spec (r : Rpc K) (L P H : K) :
    project r (L, P, H) = (ratio r r.sampNum r.sampDen L P H * r.sampScale + r.sampOff,
      ratio r r.lineNum r.lineDen L P H * r.lineScale + r.lineOff) := by
  simp [project, normXyz, ratio, C29_poly]

/-- C29: `world_to_pixel` of a point gives the RPC00B rational polynomial of the normalised coordinates, scaled and
offset to pixels (j: sample, i: line). -/
theorem C29_eval (r : Rpc K) (L P H : K) (h : Defined r (L, P, H)) :
    evalPoint r (.val L, .val P, .val H) =
      (.val (ratio r r.sampNum r.sampDen L P H * r.sampScale + r.sampOff),
       .val (ratio r r.lineNum r.lineDen L P H * r.lineScale + r.lineOff)) := by
  obtain ⟨h1, h2, h3, h4, h5⟩ := h
  simp only at h4 h5
  simp only [evalPoint, Fl.val_sub, Fl.val_div, if_neg h1, if_neg h2, if_neg h3, poly_val, if_neg h4, if_neg h5,
    Fl.val_mul, Fl.val_add, ratio, C29_poly]

theorem evalPoint_val (r : Rpc K) (p : K × K × K) (h : Defined r p) :
    evalPoint r (.val p.1, .val p.2.1, .val p.2.2) = (.val (project r p).1, .val (project r p).2) := by
  obtain ⟨L, P, H⟩ := p
  rw [C29_eval r L P H h, project_spec]

/-- C29: a NaN coordinate gives NaN pixel coordinates. -/
theorem C29_nan (r : Rpc K) (x y z : Fl K) (h : x = .nan ∨ y = .nan ∨ z = .nan) :
    evalPoint r (x, y, z) = (.nan, .nan) := by
  have key : ∀ c, poly ((x - .val r.longOff) / .val r.longScale) ((y - .val r.latOff) / .val r.latScale)
      ((z - .val r.heightOff) / .val r.heightScale) c = .nan := by
    intro c
    apply poly_nan
    rcases h with rfl | rfl | rfl <;> simp
  simp [evalPoint, key]

/-- Transform of a point to RPC coordinates: NaN points stay NaN. -/
def toRpcCrs (warp : Option (K × K × K → Fl K × Fl K × Fl K)) (p : Fl K × Fl K × Fl K) : Fl K × Fl K × Fl K :=
  match warp with
  | none => p
  | some w => match p with
    | (.val x, .val y, .val z) => w (x, y, z)
    | _ => (.nan, .nan, .nan)

/-- C29: the result for each point is that of the point alone, for every set of points, whether other points are
NaN or not. -/
theorem C29_pointwise (warp : Option (K × K × K → Fl K × Fl K × Fl K)) (r : Rpc K)
    (pts : List (Fl K × Fl K × Fl K)) :
    worldToPixel warp r pts = pts.map fun p => evalPoint r (toRpcCrs warp p) := by
  unfold worldToPixel
  cases warp with
  | none => rfl
  | some w =>
    simp only
    suffices h : scatter pts ((gather pts).map w) = pts.map (toRpcCrs (some w)) by
      rw [h, List.map_map]; rfl
    induction pts with
    | nil => rfl
    | cons p pts ih =>
      obtain ⟨x, y, z⟩ := p
      unfold gather at ih ⊢
      cases x <;> cases y <;> cases z <;>
        simp only [List.filterMap_cons, finite, scatter, List.map_cons, ih, toRpcCrs]

/-- C29: NaN points give NaN pixels with a CRS too. -/
theorem C29_nan_warped (warp : Option (K × K × K → Fl K × Fl K × Fl K)) (r : Rpc K) (x y z : Fl K)
    (h : x = .nan ∨ y = .nan ∨ z = .nan) : evalPoint r (toRpcCrs warp (x, y, z)) = (.nan, .nan) := by
  cases warp with
  | none => exact C29_nan r x y z h
  | some w =>
    have : toRpcCrs (some w) (x, y, z) = (.nan, .nan, .nan) := by
      rcases h with rfl | rfl | rfl
      · rfl
      · cases x <;> rfl
      · cases x <;> cases y <;> rfl
    rw [this]
    exact C29_nan r _ _ _ (Or.inl rfl)

/-- A model: j = 10 L + 5, i = 20 P / (1 + H) + 7. -/
def exRpc : Rpc ℚ where
  longOff := 0
  latOff := 0
  heightOff := 0
  longScale := 1
  latScale := 1
  heightScale := 1
  sampOff := 5
  lineOff := 7
  sampScale := 10
  lineScale := 20
  sampNum i := if i = 1 then 1 else 0
  sampDen i := if i = 0 then 1 else 0
  lineNum i := if i = 2 then 1 else 0
  lineDen i := if i = 0 ∨ i = 3 then 1 else 0
  err := (none, none)

example : worldToPixel none exRpc [(.val 1, .val 1, .val 1), (.val 2, .nan, .val 0), (.val 0, .val 1, .val (-1))] =
    [(.val 15, .val 17), (.nan, .nan), (.val 5, .nan)] := by decide +kernel

/-! ## C30 -/

theorem polySpec_refine (L P H : K) (t : Tform K) (num den : Fin 20 → K) :
    polySpec L P H (refineNum t num den) = t.m * polySpec L P H num + t.c * polySpec L P H den := by
  simp only [polySpec, refineNum, Finset.mul_sum, ← Finset.sum_add_distrib]
  refine Finset.sum_congr rfl fun i _ => ?_
  ring

/-- `r` with the numerators transformed. -/
def withTforms (r : Rpc K) (tj ti : Tform K) : Rpc K :=
  { r with
    sampNum := refineNum tj r.sampNum r.sampDen
    lineNum := refineNum ti r.lineNum r.lineDen }

theorem ratio_refine (r : Rpc K) (t : Tform K) (num den : Fin 20 → K) (L P H : K)
    (h : polySpec ((L - r.longOff) / r.longScale) ((P - r.latOff) / r.latScale)
      ((H - r.heightOff) / r.heightScale) den ≠ 0) :
    ratio r (refineNum t num den) den L P H = t.m * ratio r num den L P H + t.c := by
  simp only [ratio, polySpec_refine]
  field_simp

/-- A refined model can be evaluated where the original can. -/
theorem defined_withTforms {r : Rpc K} {p : K × K × K} (h : Defined r p) (tj ti : Tform K) :
    Defined (withTforms r tj ti) p := ⟨h.1, h.2, h.3, h.4, h.5⟩

theorem project_withTforms (r : Rpc K) (tj ti : Tform K) (p : K × K × K) (h : Defined r p)
    (hs : r.sampScale ≠ 0) (hl : r.lineScale ≠ 0) :
    normJi r (project (withTforms r tj ti) p) =
      (tj.m * (normJi r (project r p)).1 + tj.c, ti.m * (normJi r (project r p)).2 + ti.c) := by
  obtain ⟨L, P, H⟩ := p
  have h1 := ratio_refine r tj r.sampNum r.sampDen L P H h.samp
  have h2 := ratio_refine r ti r.lineNum r.lineDen L P H h.line
  rw [project_spec, project_spec]
  simp only [normJi]
  have e1 : ratio (withTforms r tj ti) (withTforms r tj ti).sampNum (withTforms r tj ti).sampDen L P H =
      ratio r (refineNum tj r.sampNum r.sampDen) r.sampDen L P H := rfl
  have e2 : ratio (withTforms r tj ti) (withTforms r tj ti).lineNum (withTforms r tj ti).lineDen L P H =
      ratio r (refineNum ti r.lineNum r.lineDen) r.lineDen L P H := rfl
  rw [e1, e2, h1, h2]
  simp only [withTforms]
  congr 1 <;> field_simp <;> ring

theorem refineRpc_ok {lstsq : List (K × K) → Tform K} {method : Method} {r r' : Rpc K} {gcps : List (Gcp K)}
    (h : refineRpc lstsq method r gcps = .ok r') :
    r' = withTforms r (fitAxis lstsq method (pairsJ r gcps)) (fitAxis lstsq method (pairsI r gcps)) ∧
      1 ≤ gcps.length := by
  unfold refineRpc at h
  cases method with
  | shift =>
    simp only at h
    by_cases hl : gcps.length < 1
    · rw [if_pos hl] at h; exact absurd h (by simp)
    · rw [if_neg hl] at h
      simp only [Except.ok.injEq] at h
      exact ⟨h.symm, by omega⟩
  | shiftDrift =>
    simp only at h
    by_cases hl : gcps.length < 2
    · rw [if_pos hl] at h; exact absurd h (by simp)
    · rw [if_neg hl] at h
      simp only [Except.ok.injEq] at h
      exact ⟨h.symm, by omega⟩

/-- C30: too few GCPs are refused with `ValueError`, and enough are accepted. -/
theorem C30_count (lstsq : List (K × K) → Tform K) (r : Rpc K) (gcps : List (Gcp K)) :
    (refineRpc lstsq .shift r gcps = .error .valueError ↔ gcps = []) ∧
    (refineRpc lstsq .shiftDrift r gcps = .error .valueError ↔ gcps.length < 2) := by
  unfold refineRpc
  constructor
  · simp only
    by_cases h : gcps.length < 1
    · have : gcps = [] := List.length_eq_zero_iff.1 (by omega)
      simp [this]
    · have : gcps ≠ [] := by rintro rfl; simp at h
      simp [this]
  · simp only
    by_cases h : gcps.length < 2 <;> simp [h]

/-- C30: the refined model has all fields of the original, except for the numerators. -/
theorem C30_fields (lstsq : List (K × K) → Tform K) (method : Method) (r r' : Rpc K) (gcps : List (Gcp K))
    (h : refineRpc lstsq method r gcps = .ok r') :
    r' = { r with sampNum := r'.sampNum, lineNum := r'.lineNum } := by
  rw [(refineRpc_ok h).1]; rfl

/-- C30: with the refined model, the normalised projection of every world point is a shift (`m = 1`), or shift and
drift, of its projection with the original model. -/
theorem C30_transforms (lstsq : List (K × K) → Tform K) (method : Method) (r r' : Rpc K) (gcps : List (Gcp K))
    (h : refineRpc lstsq method r gcps = .ok r') (hs : r.sampScale ≠ 0) (hl : r.lineScale ≠ 0) :
    ∃ mj cj mi ci : K, (method = .shift → mj = 1 ∧ mi = 1) ∧ ∀ p, Defined r p → Defined r' p ∧
      ((project r' p).1 - r.sampOff) / r.sampScale = mj * (((project r p).1 - r.sampOff) / r.sampScale) + cj ∧
      ((project r' p).2 - r.lineOff) / r.lineScale = mi * (((project r p).2 - r.lineOff) / r.lineScale) + ci := by
  obtain ⟨h1, -⟩ := refineRpc_ok h
  refine ⟨(fitAxis lstsq method (pairsJ r gcps)).m, (fitAxis lstsq method (pairsJ r gcps)).c,
    (fitAxis lstsq method (pairsI r gcps)).m, (fitAxis lstsq method (pairsI r gcps)).c, ?_, ?_⟩
  · rintro rfl; exact ⟨rfl, rfl⟩
  · intro p hp
    have h2 := project_withTforms r (fitAxis lstsq method (pairsJ r gcps)) (fitAxis lstsq method (pairsI r gcps)) p
      hp hs hl
    rw [h1]
    simp only [normJi, Prod.mk.injEq] at h2
    exact ⟨defined_withTforms hp _ _, h2⟩

theorem sum_map_div (l : List (Gcp K)) (f : Gcp K → K) (d : K) :
    (l.map fun g => f g / d).sum = (l.map f).sum / d := by
  induction l with
  | nil => simp
  | cons g l ih => simp [ih, add_div]

/-- C30: the shift method moves the projection of every world point by the mean of the GCP residuals, in pixels. -/
theorem C30_shift [CharZero K] (lstsq : List (K × K) → Tform K) (r r' : Rpc K) (gcps : List (Gcp K))
    (h : refineRpc lstsq .shift r gcps = .ok r') (hs : r.sampScale ≠ 0) (hl : r.lineScale ≠ 0) (p : K × K × K)
    (hp : Defined r p) :
    project r' p =
      ((project r p).1 + (gcps.map fun g => g.ji.1 - (project r g.xyz).1).sum / gcps.length,
       (project r p).2 + (gcps.map fun g => g.ji.2 - (project r g.xyz).2).sum / gcps.length) := by
  obtain ⟨h1, hn⟩ := refineRpc_ok h
  have hn' : (gcps.length : K) ≠ 0 := by exact_mod_cast (by omega : gcps.length ≠ 0)
  have h2 := project_withTforms r (fitAxis lstsq .shift (pairsJ r gcps)) (fitAxis lstsq .shift (pairsI r gcps)) p
    hp hs hl
  rw [← h1] at h2
  simp only [fitAxis, pairsJ, pairsI, normJi, List.map_map, Function.comp_def, List.length_map, Prod.mk.injEq] at h2
  have e1 : (gcps.map fun g => (g.ji.1 - r.sampOff) / r.sampScale - ((project r g.xyz).1 - r.sampOff) / r.sampScale) =
      gcps.map fun g => (g.ji.1 - (project r g.xyz).1) / r.sampScale := by
    apply List.map_congr_left; intro g _; field_simp; ring
  have e2 : (gcps.map fun g => (g.ji.2 - r.lineOff) / r.lineScale - ((project r g.xyz).2 - r.lineOff) / r.lineScale) =
      gcps.map fun g => (g.ji.2 - (project r g.xyz).2) / r.lineScale := by
    apply List.map_congr_left; intro g _; field_simp; ring
  rw [e1, e2, sum_map_div gcps (fun g => g.ji.1 - (project r g.xyz).1), sum_map_div gcps (fun g => g.ji.2 - (project r g.xyz).2)] at h2
  obtain ⟨h3, h4⟩ := h2
  have : project r' p = ((project r' p).1, (project r' p).2) := rfl
  rw [this]
  generalize (gcps.map fun g => g.ji.1 - (project r g.xyz).1).sum = S1 at *
  generalize (gcps.map fun g => g.ji.2 - (project r g.xyz).2).sum = S2 at *
  congr 1
  · field_simp at h3 ⊢
    linear_combination h3
  · field_simp at h4 ⊢
    linear_combination h4

end Verif.RpcCam
