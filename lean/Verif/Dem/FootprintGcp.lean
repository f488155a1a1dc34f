import Verif.Dem.Footprint
import Verif.Dem.SeesGcp

/-!
# The polygon of the boundary of GCP cameras (C107)
-/

set_option autoImplicit false

namespace Verif.Dem

open Verif.Frame (InIm pixelBoundary BoundaryZ Surface Short C42_on_border)
open Verif.RpcCam Verif.Common Verif.Ortho
open Res (ok_bind error_bind)

noncomputable section

/-! ## Specification -/

/-- GDAL's transforms between pixels and the world are the affine one, which is regular. -/
structure AffineGcp (T : Affine ℝ) (fwd : ℝ × ℝ × ℝ → ℝ × ℝ) (inv : ℝ × ℝ → ℝ → ℝ × ℝ) : Prop where
  regular : T.a * T.e - T.b * T.d ≠ 0
  inv : ∀ q z, inv q z = T.apply q.1 q.2
  fwd : ∀ q z, fwd ((T.apply q.1 q.2).1, (T.apply q.1 q.2).2, z) = q

/-- A number, or a DEM that `world_boundary` takes. -/
def BoundaryZ.Ok : BoundaryZ → Prop
  | .scalar _ => True
  | .surface s => s.res.isSome = true ∧ s.dtypeOk = true ∧ (s.shape.1 < 32767 ∧ s.shape.2 < 32767) ∧ s.interpIsEnum = true ∧ s.minZ ≤ s.maxZ
  | .other => False

/-! ## Lemmas -/

/-- The pixel of a point. -/
def pixelOf (T : Affine ℝ) (q : ℝ × ℝ) : ℝ × ℝ :=
  ((T.e * (q.1 - T.c) - T.b * (q.2 - T.f)) / (T.a * T.e - T.b * T.d) - 1 / 2,
    (T.a * (q.2 - T.f) - T.d * (q.1 - T.c)) / (T.a * T.e - T.b * T.d) - 1 / 2)

theorem apply_pixelOf {T : Affine ℝ} (h : T.a * T.e - T.b * T.d ≠ 0) (q : ℝ × ℝ) :
    T.apply ((pixelOf T q).1 + 1 / 2) ((pixelOf T q).2 + 1 / 2) = q := by
  simp only [pixelOf, sub_add_cancel, Affine.apply]
  set D := T.a * T.e - T.b * T.d with hD
  refine Prod.ext ?_ ?_ <;> simp only <;> field_simp <;> rw [hD] <;> ring

theorem AffineGcp.pixel {T : Affine ℝ} {fwd : ℝ × ℝ × ℝ → ℝ × ℝ} {inv : ℝ × ℝ → ℝ → ℝ × ℝ} (h : AffineGcp T fwd inv) (q : ℝ × ℝ) (z : ℝ) :
    gcpWorldToPixel fwd (q.1, q.2, z) = pixelOf T q := by
  have := h.fwd ((pixelOf T q).1 + 1 / 2, (pixelOf T q).2 + 1 / 2) z
  simp only [apply_pixelOf h.regular] at this
  simp [gcpWorldToPixel, this]

theorem pixelOf_mix (T : Affine ℝ) (p q : ℝ × ℝ) (a b : ℝ) (hab : a + b = 1) :
    pixelOf T (a • p + b • q) = (a * (pixelOf T p).1 + b * (pixelOf T q).1, a * (pixelOf T p).2 + b * (pixelOf T q).2) := by
  have hb : b = 1 - a := by linarith
  subst hb
  simp only [pixelOf, Prod.fst_add, Prod.snd_add, Prod.smul_fst, Prod.smul_snd, smul_eq_mul]
  refine Prod.ext ?_ ?_ <;> simp only <;> ring

/-! ## Theorems -/

/-- C107: for a GCP camera with an affine transform, as GDAL fits to three to five GCPs, the polygon of the boundary is the ground that the
camera sees, at every elevation and on every DEM, also one that is not level: the locations in the polygon are those that `world_to_pixel`
puts in the image, whatever the elevation `e` there.  Missing: transforms of order two (`C107_gcp_fails`); RPC cameras are in
`C107_rpc_fails`. -/
theorem C107_gcp_partial {T : Affine ℝ} {fwd : ℝ × ℝ × ℝ → ℝ × ℝ} {inv : ℝ × ℝ → ℝ → ℝ × ℝ} (h : AffineGcp T fwd inv) (im : ℕ × ℕ)
    (hw : 0 < im.1) (hh : 0 < im.2) (num : Option ℤ) (l : List (ℝ × ℝ)) (hl : pixelBoundary im num = .ok l) (hc : HasCorners im l)
    (z : BoundaryZ) (hz : BoundaryZ.Ok z) :
    ∃ Xs : List (ℝ × ℝ × ℝ), gcpBoundary inv im z num = .ok (Xs.map flPt) ∧
      ∀ e, convexHull ℝ {q : ℝ × ℝ | ∃ X ∈ Xs, q = (X.1, X.2.1)} = {q | GcpSeesAt fwd im q e} := by
  have hin : ∀ p ∈ l, InIm im p := fun p hp => (C42_on_border im hw hh num l hl p hp).1
  obtain ⟨lo, hi, hz'⟩ : ∃ lo hi, (z = .scalar lo ∧ lo = hi) ∨ ∃ s res, z = .surface s ∧ s.res = some res ∧ s.dtypeOk = true ∧
      (s.shape.1 < 32767 ∧ s.shape.2 < 32767) ∧ s.interpIsEnum = true ∧ s.minZ = lo ∧ s.maxZ = hi ∧ lo ≤ hi ∧
      ∀ p ∈ l, Short res ((inv (p.1 + 1 / 2, p.2 + 1 / 2) hi).1, (inv (p.1 + 1 / 2, p.2 + 1 / 2) hi).2, hi)
        ((inv (p.1 + 1 / 2, p.2 + 1 / 2) lo).1, (inv (p.1 + 1 / 2, p.2 + 1 / 2) lo).2, lo) := by
    cases z with
    | scalar z => exact ⟨z, z, .inl ⟨rfl, rfl⟩⟩
    | surface s =>
      obtain ⟨h1, h2, h3, h4, h5⟩ := hz
      obtain ⟨res, h1⟩ := Option.isSome_iff_exists.1 h1
      refine ⟨s.minZ, s.maxZ, .inr ⟨s, res, rfl, h1, h2, h3, h4, rfl, rfl, h5, fun p _ => ?_⟩⟩
      simp [Short, h.inv]
    | other => exact hz.elim
  obtain ⟨Xs, e1, -, e2⟩ := C108_gcp fwd inv im num l hl z lo hi hz' fun p _ z _ _ => by rw [h.inv]; exact h.fwd _ z
  refine ⟨Xs, e1, fun e => ?_⟩
  have hpix : ∀ X : ℝ × ℝ × ℝ, gcpWorldToPixel fwd X = pixelOf T (X.1, X.2.1) := fun X => h.pixel (X.1, X.2.1) X.2.2
  have hsee : {q | GcpSeesAt fwd im q e} = {q | InIm im (pixelOf T q)} := by
    ext q
    simp only [Set.mem_ofPred_eq, GcpSeesAt, h.pixel]
  rw [hsee]
  apply Set.Subset.antisymm
  · refine convexHull_min ?_ ?_
    · rintro q ⟨X, hX, rfl⟩
      have := List.mem_map_of_mem (f := gcpWorldToPixel fwd) hX
      rw [e2, hpix] at this
      exact hin _ this
    · intro p hp q hq a b ha hb hab
      simp only [Set.mem_ofPred_eq, InIm] at hp hq ⊢
      rw [pixelOf_mix T p q a b hab]
      have hb' : b = 1 - a := by linarith
      subst hb'
      obtain ⟨p1, p2, p3, p4⟩ := hp
      obtain ⟨q1, q2, q3, q4⟩ := hq
      refine ⟨?_, ?_, ?_, ?_⟩ <;> simp only <;> nlinarith
  · intro q hq
    set H := convexHull ℝ {q : ℝ × ℝ | ∃ X ∈ Xs, q = (X.1, X.2.1)} with hH
    have cv : Convex ℝ H := convex_convexHull ℝ _
    have frac : ∀ {t n : ℝ}, 0 ≤ t → t ≤ n → ∃ s, 0 ≤ s ∧ s ≤ 1 ∧ t = s * n := by
      intro t n ht hn
      rcases (ht.trans hn).eq_or_lt with h0 | h0
      · exact ⟨0, le_rfl, zero_le_one, by linarith⟩
      · exact ⟨t / n, by positivity, (div_le_one h0).2 hn, by field_simp⟩
    obtain ⟨h1, h2, h3, h4⟩ := hq
    obtain ⟨s, s0, s1, hs⟩ := frac h1 h2
    obtain ⟨r, r0, r1, hr⟩ := frac h3 h4
    have corner : ∀ x y : ℝ, (x = 0 ∨ x = (im.1 : ℝ) - 1) → (y = 0 ∨ y = (im.2 : ℝ) - 1) → T.apply (x + 1 / 2) (y + 1 / 2) ∈ H := by
      intro x y hx hy
      have hm : (x, y) ∈ l := hc x y hx hy
      rw [← e2] at hm
      obtain ⟨X, hX, hXp⟩ := List.mem_map.1 hm
      refine subset_convexHull ℝ _ ⟨X, hX, ?_⟩
      rw [hpix] at hXp
      have := apply_pixelOf h.regular (X.1, X.2.1)
      rw [hXp] at this
      exact this
    have side : ∀ x : ℝ, (x = 0 ∨ x = (im.1 : ℝ) - 1) → T.apply (x + 1 / 2) ((pixelOf T q).2 + 1 / 2) ∈ H := by
      intro x hx
      refine cv.segment_subset (corner x 0 hx (.inl rfl)) (corner x _ hx (.inr rfl)) ⟨1 - r, r, by linarith, r0, by ring, ?_⟩
      rw [hr]
      simp only [Affine.apply]
      refine Prod.ext ?_ ?_ <;> simp <;> ring
    rw [← apply_pixelOf h.regular q]
    refine cv.segment_subset (side 0 (.inl rfl)) (side _ (.inr rfl)) ⟨1 - s, s, by linarith, s0, by ring, ?_⟩
    rw [hs]
    simp only [Affine.apply]
    refine Prod.ext ?_ ?_ <;> simp <;> ring

theorem hump_hull (b : ℝ) (hb : 0 < b) (z : ℝ) : ∀ q' ∈ convexHull ℝ {q : ℝ × ℝ | ∃ X ∈ (Verif.Frame.boundary8 (3, 3)).map (fun p =>
      ((humpInv b (p.1 + 1 / 2, p.2 + 1 / 2) z).1, (humpInv b (p.1 + 1 / 2, p.2 + 1 / 2) z).2, z)), q = (X.1, X.2.1)},
    q'.2 + b ≤ ((1 / 2, 2 + b) : ℝ × ℝ).2 := by
  intro q' hq'
  have cv : Convex ℝ {q : ℝ × ℝ | q.2 ≤ 2} := by
    intro p hp q hq a c ha hc hac
    simp only [Set.mem_ofPred_eq, Prod.snd_add, Prod.smul_snd, smul_eq_mul] at *
    have hc' : c = 1 - a := by linarith
    subst hc'
    nlinarith
  have : q' ∈ {q : ℝ × ℝ | q.2 ≤ 2} := by
    refine convexHull_min ?_ cv hq'
    rintro q ⟨X, hX, rfl⟩
    obtain ⟨p, hp, rfl⟩ := List.mem_map.1 hX
    simp only [Verif.Frame.boundary8, List.mem_cons, List.not_mem_nil, or_false] at hp
    simp only [Set.mem_ofPred_eq, humpInv]
    rcases hp with rfl | rfl | rfl | rfl | rfl | rfl | rfl | rfl <;> norm_num <;> linarith
  simp only [Set.mem_ofPred_eq] at this
  simp only
  linarith

/-- C107 does not hold for GCP cameras with transforms of order two, as GDAL fits to six GCPs or more: ground that is seen is farther from
the polygon of the boundary, with its default points, than any `b`.  Both transforms are of order two and exact inverses of each other. -/
theorem C107_gcp_fails (b : ℝ) (hb : 0 < b) (z : ℝ) : ∃ (fwd : ℝ × ℝ × ℝ → ℝ × ℝ) (inv : ℝ × ℝ → ℝ → ℝ × ℝ) (Xs : List (ℝ × ℝ × ℝ)) (q : ℝ × ℝ),
    (∀ x y z, fwd (x, y, z) = (x + 1 / 2, y + 4 * b * x ^ 2 - 4 * b * x + 1 / 2)) ∧
    (∀ x y z, inv (fwd (x, y, z)) z = (x, y)) ∧ (∀ q z, fwd ((inv q z).1, (inv q z).2, z) = q) ∧
    gcpBoundary inv (3, 3) (.scalar z) none = .ok (Xs.map flPt) ∧ GcpSeesAt fwd (3, 3) q z ∧
    ∀ q' ∈ convexHull ℝ {q : ℝ × ℝ | ∃ X ∈ Xs, q = (X.1, X.2.1)}, q'.2 + b ≤ q.2 := by
  refine ⟨humpFwd b, humpInv b, _, (1 / 2, 2 + b), ?_, ?_, ?_, gcp_boundary _ _ _, ?_, ?_⟩
  · intro x y z
    simp only [humpFwd]
    refine Prod.ext rfl ?_
    simp only
    ring
  · intro x y z
    simp only [humpFwd, humpInv]
    refine Prod.ext ?_ ?_ <;> simp only <;> ring
  · intro q z
    simp only [humpFwd, humpInv]
    refine Prod.ext ?_ ?_ <;> simp only <;> ring
  · simp only [GcpSeesAt, gcpWorldToPixel, humpFwd]
    refine ⟨?_, ?_, ?_, ?_⟩ <;> norm_num <;> ring_nf <;> norm_num
  · exact hump_hull b hb z

/-- A camera with an image of 3 x 3 pixels of which pixel (j, i) has the ground (2 j + i, 10 - j - 3 i), on a surface that is not level. -/
example : ∃ Xs : List (ℝ × ℝ × ℝ),
    gcpBoundary (fun q _ => (⟨2, 1, -3 / 2, -1, -3, 12⟩ : Affine ℝ).apply q.1 q.2) (3, 3)
      (.surface ⟨(10, 10), true, 0, 5, some (1, -1), true, fun x _ => if x < 3 then .val 0 else .val 5⟩) none = .ok (Xs.map flPt) ∧
    ∀ e, convexHull ℝ {q : ℝ × ℝ | ∃ X ∈ Xs, q = (X.1, X.2.1)} =
      {q | GcpSeesAt (fun p => ((3 * p.1 + p.2.1 - 10) / 5 + 1 / 2, (20 - 2 * p.2.1 - p.1) / 5 + 1 / 2)) (3, 3) q e} := by
  obtain ⟨l, hl, -, -⟩ := Verif.Frame.C42_default (K := ℝ) (3, 3) none (.inl rfl)
  refine C107_gcp_partial (T := ⟨2, 1, -3 / 2, -1, -3, 12⟩) ⟨by norm_num, fun _ _ => rfl, fun q z => ?_⟩ (3, 3) (by decide) (by decide)
    none l hl (C107_corners (3, 3) none l hl (.inl rfl)) _ ⟨rfl, rfl, ⟨by decide, by decide⟩, rfl, by norm_num⟩
  simp only [Affine.apply]
  refine Prod.ext ?_ ?_ <;> simp only <;> ring

/-- `C107_gcp_fails` with ground 7 m outside the polygon. -/
example : ∃ (fwd : ℝ × ℝ × ℝ → ℝ × ℝ) (inv : ℝ × ℝ → ℝ → ℝ × ℝ) (Xs : List (ℝ × ℝ × ℝ)) (q : ℝ × ℝ),
    gcpBoundary inv (3, 3) (.scalar 100) none = .ok (Xs.map flPt) ∧ GcpSeesAt fwd (3, 3) q 100 ∧
    q ∉ convexHull ℝ {q : ℝ × ℝ | ∃ X ∈ Xs, q = (X.1, X.2.1)} := by
  obtain ⟨fwd, inv, Xs, q, -, -, -, h1, h2, h3⟩ := C107_gcp_fails 7 (by norm_num) 100
  exact ⟨fwd, inv, Xs, q, h1, h2, fun h => by have := h3 q h; linarith⟩

end

end Verif.Dem
