import Mathlib.Analysis.Convex.Hull
import Verif.Dem.Sees

/-!
# The boundary polygon and the ground that the camera sees (C107)
-/

set_option autoImplicit false

namespace Verif.Dem

open Matrix Verif.Frame
open Verif.Common (rint)
open Res (ok_bind error_bind)

noncomputable section

/-! ## Specification -/

/-- The ground that the camera sees in its image, when all ground has the elevation z. -/
def SeenLevel (c : FrameCam) (R : M3) (T : V3) (z : ℝ) : Set V3 := {X | X 2 = z ∧ ∃ p, InIm c.imSize p ∧ SeenAt c R T X p}

/-- The pixels of the corners of the image are in the list. -/
def HasCorners (im : ℕ × ℕ) (l : List (ℝ × ℝ)) : Prop :=
  ∀ x y : ℝ, (x = 0 ∨ x = (im.1 : ℝ) - 1) → (y = 0 ∨ y = (im.2 : ℝ) - 1) → (x, y) ∈ l

/-! ## Lemmas -/

theorem mix_mul_neg {a b s : ℝ} (ha : a < 0) (hb : b < 0) (h0 : 0 ≤ s) (h1 : s ≤ 1) : (1 - s) * a + s * b < 0 := by
  rcases h0.eq_or_lt with rfl | h0
  · simpa using ha
  · nlinarith [mul_neg_of_pos_of_neg h0 hb, mul_nonneg (sub_nonneg.2 h1) (neg_nonneg.2 ha.le)]

/-- Where the ray of a pixel between two pixels meets a level is between where theirs do. -/
theorem point_segment {c : FrameCam} {R : M3} {T : V3} (h : IsPinhole c R T) {a b p : ℝ × ℝ} {s : ℝ} (s0 : 0 ≤ s) (s1 : s ≤ 1)
    (h1 : p.1 = (1 - s) * a.1 + s * b.1) (h2 : p.2 = (1 - s) * a.2 + s * b.2) (ha : Down c R a) (hb : Down c R b) (z : ℝ) :
    Down c R p ∧ c.pointAtZ R T p z ∈ segment ℝ (c.pointAtZ R T a z) (c.pointAtZ R T b z) := by
  obtain ⟨k, ctr, -, -, -, hcam, -, -, -⟩ := h.spec
  have hM : ∀ p, R *ᵥ c.toCam p = (R * (kMat k ctr)⁻¹) *ᵥ homog p := by
    intro p; rw [hcam, mulVec_mulVec]
  have hm : ∀ i, (R *ᵥ c.toCam p) i = (1 - s) * (R *ᵥ c.toCam a) i + s * (R *ᵥ c.toCam b) i := by
    intro i
    simp only [hM]
    exact ray_mix _ a b p s h1 h2 i
  unfold Down at *
  have hp : (R *ᵥ c.toCam p) 2 < 0 := by rw [hm]; exact mix_mul_neg ha hb s0 s1
  refine ⟨hp, (1 - s) * (R *ᵥ c.toCam a) 2 / (R *ᵥ c.toCam p) 2, s * (R *ᵥ c.toCam b) 2 / (R *ᵥ c.toCam p) 2, ?_, ?_, ?_, ?_⟩
  · exact div_nonneg_of_nonpos (mul_nonpos_of_nonneg_of_nonpos (by linarith) ha.le) hp.le
  · exact div_nonneg_of_nonpos (mul_nonpos_of_nonneg_of_nonpos s0 hb.le) hp.le
  · rw [← add_div, ← hm, div_self hp.ne]
  · funext i
    simp only [FrameCam.pointAtZ, Pi.add_apply, Pi.smul_apply, smul_eq_mul]
    have e2 := hm 2
    have ei := hm i
    generalize (R *ᵥ c.toCam p) 2 = P2 at *
    generalize (R *ᵥ c.toCam p) i = Pi at *
    generalize (R *ᵥ c.toCam a) 2 = A2 at *
    generalize (R *ᵥ c.toCam a) i = Ai at *
    generalize (R *ᵥ c.toCam b) 2 = B2 at *
    generalize (R *ᵥ c.toCam b) i = Bi at *
    have n1 := ha.ne
    have n2 := hb.ne
    have n3 := hp.ne
    have hT : T i = ((1 - s) * A2 / P2 + s * B2 / P2) * T i := by rw [← add_div, ← e2, div_self n3, one_mul]
    have : Pi * ((z - T 2) / P2) = (1 - s) * A2 / P2 * (Ai * ((z - T 2) / A2)) + s * B2 / P2 * (Bi * ((z - T 2) / B2)) := by
      rw [ei]
      field_simp
    rw [this]
    linear_combination -hT

/-- Points in front of a camera without distortion, that are seen on one side of a line in the image, are a convex set. -/
theorem half_convex {c : FrameCam} {R : M3} {T : V3} (h : IsPinhole c R T) (α β γ : ℝ) (strict : Bool) :
    Convex ℝ {X : V3 | 0 < FrameCam.camCoords R T X 2 ∧
      (if strict then 0 < α * (c.projectPt R T X).1 + β * (c.projectPt R T X).2 + γ
        else 0 ≤ α * (c.projectPt R T X).1 + β * (c.projectPt R T X).2 + γ)} := by
  obtain ⟨k, ctr, -, -, hpix, -, -, -, -⟩ := h.spec
  set F : V3 → ℝ := fun X => α * (k.1 * FrameCam.camCoords R T X 0 + ctr.1 * FrameCam.camCoords R T X 2) +
    β * (k.2 * FrameCam.camCoords R T X 1 + ctr.2 * FrameCam.camCoords R T X 2) + γ * FrameCam.camCoords R T X 2 with hF
  have hL : ∀ X, 0 < FrameCam.camCoords R T X 2 →
      α * (c.projectPt R T X).1 + β * (c.projectPt R T X).2 + γ = F X / FrameCam.camCoords R T X 2 := by
    intro X hX
    have := hX.ne'
    simp only [FrameCam.projectPt, hpix, dotK_kMat, FrameCam.unitDepth, hF]
    field_simp
  have hC : ∀ (X Y : V3) (a b : ℝ), a + b = 1 → FrameCam.camCoords R T (a • X + b • Y) =
      a • FrameCam.camCoords R T X + b • FrameCam.camCoords R T Y := by
    intro X Y a b hab
    unfold FrameCam.camCoords
    rw [← mulVec_smul, ← mulVec_smul, ← mulVec_add]
    congr 1
    have : T = a • T + b • T := by rw [← add_smul, hab, one_smul]
    nth_rw 1 [this]
    module
  have hset : {X : V3 | 0 < FrameCam.camCoords R T X 2 ∧
      (if strict then 0 < α * (c.projectPt R T X).1 + β * (c.projectPt R T X).2 + γ
        else 0 ≤ α * (c.projectPt R T X).1 + β * (c.projectPt R T X).2 + γ)} =
      {X | 0 < FrameCam.camCoords R T X 2 ∧ (if strict then 0 < F X else 0 ≤ F X)} := by
    ext X
    simp only [Set.mem_ofPred_eq]
    constructor
    · rintro ⟨h1, h2⟩
      refine ⟨h1, ?_⟩
      rw [hL X h1] at h2
      cases strict
      · simpa [div_nonneg_iff, h1.le, h1.not_ge] using h2
      · simpa [div_pos_iff, h1, h1.not_gt] using h2
    · rintro ⟨h1, h2⟩
      refine ⟨h1, ?_⟩
      rw [hL X h1]
      cases strict
      · simp only [Bool.false_eq_true, if_false] at h2 ⊢; exact div_nonneg h2 h1.le
      · simp only [if_true] at h2 ⊢; exact div_pos h2 h1
  rw [hset]
  intro X hX Y hY a b ha hb hab
  obtain ⟨hX1, hX2⟩ := hX
  obtain ⟨hY1, hY2⟩ := hY
  have hFl : F (a • X + b • Y) = a * F X + b * F Y := by
    simp only [hF, hC X Y a b hab, Pi.add_apply, Pi.smul_apply, smul_eq_mul]
    ring
  have pos : ∀ {u v : ℝ}, 0 < u → 0 < v → 0 < a * u + b * v := by
    intro u v hu hv
    rcases ha.eq_or_lt with h0 | h0
    · have : b = 1 := by linarith
      rw [← h0, this]; linarith
    · have := mul_pos h0 hu
      have := mul_nonneg hb hv.le
      linarith
  refine ⟨?_, ?_⟩
  · rw [hC X Y a b hab]
    exact pos hX1 hY1
  · rw [hFl]
    cases strict
    · simp only [Bool.false_eq_true, if_false] at *
      have := mul_nonneg ha hX2
      have := mul_nonneg hb hY2
      linarith
    · simp only [if_true] at *
      exact pos hX2 hY2

theorem level_convex (z : ℝ) : Convex ℝ {X : V3 | X 2 = z} := by
  intro X hX Y hY a b ha hb hab
  simp only [Set.mem_ofPred_eq, Pi.add_apply, Pi.smul_apply, smul_eq_mul] at *
  rw [hX, hY, ← add_mul, hab, one_mul]

/-- The ground that is seen of a level is convex. -/
theorem seen_convex {c : FrameCam} {R : M3} {T : V3} (h : IsPinhole c R T) (z : ℝ) : Convex ℝ (SeenLevel c R T z) := by
  have e : SeenLevel c R T z = {X : V3 | X 2 = z} ∩ ({X : V3 | 0 < FrameCam.camCoords R T X 2 ∧
      (if false then 0 < 1 * (c.projectPt R T X).1 + 0 * (c.projectPt R T X).2 + 0
        else 0 ≤ 1 * (c.projectPt R T X).1 + 0 * (c.projectPt R T X).2 + 0)} ∩ ({X : V3 | 0 < FrameCam.camCoords R T X 2 ∧
      (if false then 0 < (-1) * (c.projectPt R T X).1 + 0 * (c.projectPt R T X).2 + ((c.imSize.1 : ℝ) - 1)
        else 0 ≤ (-1) * (c.projectPt R T X).1 + 0 * (c.projectPt R T X).2 + ((c.imSize.1 : ℝ) - 1))} ∩
      ({X : V3 | 0 < FrameCam.camCoords R T X 2 ∧
      (if false then 0 < 0 * (c.projectPt R T X).1 + 1 * (c.projectPt R T X).2 + 0
        else 0 ≤ 0 * (c.projectPt R T X).1 + 1 * (c.projectPt R T X).2 + 0)} ∩ {X : V3 | 0 < FrameCam.camCoords R T X 2 ∧
      (if false then 0 < 0 * (c.projectPt R T X).1 + (-1) * (c.projectPt R T X).2 + ((c.imSize.2 : ℝ) - 1)
        else 0 ≤ 0 * (c.projectPt R T X).1 + (-1) * (c.projectPt R T X).2 + ((c.imSize.2 : ℝ) - 1))}))) := by
    ext X
    simp only [SeenLevel, InIm, SeenAt, Set.mem_ofPred_eq, Set.mem_inter_iff, Bool.false_eq_true, if_false]
    constructor
    · rintro ⟨h0, p, ⟨h1, h2, h3, h4⟩, rfl, h5⟩
      exact ⟨h0, ⟨h5, by linarith⟩, ⟨h5, by linarith⟩, ⟨h5, by linarith⟩, ⟨h5, by linarith⟩⟩
    · rintro ⟨h0, ⟨h5, h1⟩, ⟨-, h2⟩, ⟨-, h3⟩, ⟨-, h4⟩⟩
      exact ⟨h0, _, ⟨by linarith, by linarith, by linarith, by linarith⟩, rfl, h5⟩
  rw [e]
  exact (level_convex z).inter ((half_convex h _ _ _ false).inter ((half_convex h _ _ _ false).inter
    ((half_convex h _ _ _ false).inter (half_convex h _ _ _ false))))

/-- All pixels of the image are between its corners. -/
theorem point_hull {c : FrameCam} {R : M3} {T : V3} (h : IsPinhole c R T) (hd : ∀ p, InIm c.imSize p → Down c R p)
    (l : List (ℝ × ℝ)) (hl : HasCorners c.imSize l) {p : ℝ × ℝ} (hp : InIm c.imSize p) (z : ℝ) :
    c.pointAtZ R T p z ∈ convexHull ℝ {X | X ∈ l.map fun p => c.pointAtZ R T p z} := by
  set H := convexHull ℝ {X | X ∈ l.map fun p => c.pointAtZ R T p z}
  have hH : Convex ℝ H := convex_convexHull _ _
  have frac : ∀ {t n : ℝ}, 0 ≤ t → t ≤ n → ∃ s, 0 ≤ s ∧ s ≤ 1 ∧ t = (1 - s) * 0 + s * n := by
    intro t n ht hn
    rcases (ht.trans hn).eq_or_lt with h0 | h0
    · exact ⟨0, le_rfl, zero_le_one, by linarith⟩
    · exact ⟨t / n, by positivity, (div_le_one h0).2 hn, by field_simp; ring⟩
  obtain ⟨h1, h2, h3, h4⟩ := hp
  obtain ⟨s, s0, s1, hs⟩ := frac h1 h2
  obtain ⟨r, r0, r1, hr⟩ := frac h3 h4
  have hw' := h1.trans h2
  have hh' := h3.trans h4
  have corner : ∀ x y : ℝ, (x = 0 ∨ x = (c.imSize.1 : ℝ) - 1) → (y = 0 ∨ y = (c.imSize.2 : ℝ) - 1) →
      Down c R (x, y) ∧ c.pointAtZ R T (x, y) z ∈ H := by
    intro x y hx hy
    refine ⟨hd _ ⟨?_, ?_, ?_, ?_⟩, subset_convexHull _ _ (List.mem_map.2 ⟨(x, y), hl x y hx hy, rfl⟩)⟩
    · rcases hx with rfl | rfl <;> simp [hw']
    · rcases hx with rfl | rfl <;> simp [hw']
    · rcases hy with rfl | rfl <;> simp [hh']
    · rcases hy with rfl | rfl <;> simp [hh']
  have side : ∀ x : ℝ, (x = 0 ∨ x = (c.imSize.1 : ℝ) - 1) → Down c R (x, p.2) ∧ c.pointAtZ R T (x, p.2) z ∈ H := by
    intro x hx
    obtain ⟨a1, a2⟩ := corner x 0 hx (.inl rfl)
    obtain ⟨b1, b2⟩ := corner x _ hx (.inr rfl)
    obtain ⟨d, m⟩ := point_segment h (p := (x, p.2)) r0 r1 (by simp only; ring) hr a1 b1 z
    exact ⟨d, hH.segment_subset a2 b2 m⟩
  obtain ⟨a1, a2⟩ := side 0 (.inl rfl)
  obtain ⟨b1, b2⟩ := side _ (.inr rfl)
  obtain ⟨-, m⟩ := point_segment h (p := p) s0 s1 hs (by simp only; ring) a1 b1 z
  exact hH.segment_subset a2 b2 m

/-- C107: a polygon through where the corners of the image, and any other of its pixels, are on level ground is the ground seen. -/
theorem hull_eq {c : FrameCam} {R : M3} {T : V3} (h : IsPinhole c R T) (hd : ∀ p, InIm c.imSize p → Down c R p)
    (l : List (ℝ × ℝ)) (hl : HasCorners c.imSize l) (hin : ∀ p ∈ l, InIm c.imSize p) (z : ℝ) (hz : z < T 2) :
    convexHull ℝ {X | X ∈ l.map fun p => c.pointAtZ R T p z} = SeenLevel c R T z := by
  apply Set.Subset.antisymm
  · refine convexHull_min ?_ (seen_convex h z)
    rintro X hX
    obtain ⟨p, hp, rfl⟩ := List.mem_map.1 hX
    have hr := hd p (hin p hp)
    obtain ⟨q1, q2, -⟩ := (RayCam.of_pinhole h).point hr z
    exact ⟨q1, p, hin p hp, q2 hz⟩
  · rintro X ⟨h1, p, hp, hs⟩
    obtain ⟨-, e⟩ := seen_point h (hd p hp) hs
    rw [← e, h1]
    exact point_hull h hd l hl hp z

theorem linspace_head {K : Type} [Field K] [LinearOrder K] [IsStrictOrderedRing K] [FloorRing K] {a b : K × K} {m : ℤ}
    {l : List (K × K)} (hm : 0 < m) (h : linspaceOpen a b m = .ok l) : a ∈ l := by
  unfold linspaceOpen at h
  rw [if_neg (by omega)] at h
  injection h with h
  subst h
  exact List.mem_map.2 ⟨0, List.mem_range.2 (by omega), by simp⟩

theorem rint_pos {x : ℝ} (h : 1 / 2 < x) : 0 < rint x := by
  have h1 := (rint_bounds x).1
  by_contra hc
  push Not at hc
  have : (rint x : ℝ) ≤ 0 := by exact_mod_cast hc
  linarith

theorem linspace_ok {a b : ℝ × ℝ} {m : ℤ} (h : 0 ≤ m) : ∃ l, linspaceOpen a b m = .ok l := by
  unfold linspaceOpen
  rw [if_neg (by omega)]
  exact ⟨_, rfl⟩

theorem linspace_zero {a b : ℝ × ℝ} : linspaceOpen a b 0 = .ok [] := rfl

/-- The polygon is on one side of a line in the image when its points are. -/
theorem hull_side {c : FrameCam} {R : M3} {T : V3} (h : IsPinhole c R T) (l : List (ℝ × ℝ)) (hd : ∀ p ∈ l, Down c R p) (z : ℝ)
    (hz : z < T 2) (α β γ : ℝ) (hl : ∀ p ∈ l, 0 < α * p.1 + β * p.2 + γ) {X : V3} {q : ℝ × ℝ} (hs : SeenAt c R T X q)
    (hq : α * q.1 + β * q.2 + γ ≤ 0) : X ∉ convexHull ℝ {X | X ∈ l.map fun p => c.pointAtZ R T p z} := by
  intro hX
  have := convexHull_min (t := {X : V3 | 0 < FrameCam.camCoords R T X 2 ∧
      (if true then 0 < α * (c.projectPt R T X).1 + β * (c.projectPt R T X).2 + γ
        else 0 ≤ α * (c.projectPt R T X).1 + β * (c.projectPt R T X).2 + γ)}) ?_ (half_convex h α β γ true) hX
  · obtain ⟨-, h2⟩ := this
    rw [hs.1] at h2
    simp only [if_true] at h2
    linarith
  · intro Y hY
    obtain ⟨p, hp, rfl⟩ := List.mem_map.1 hY
    obtain ⟨-, q2, -⟩ := (RayCam.of_pinhole h).point (hd p hp) z
    obtain ⟨e1, e2⟩ := q2 hz
    refine ⟨e2, ?_⟩
    rw [e1]
    exact hl p hp

/-! ## Theorems -/

/-- C107: by default the corners of the image are among the pixels of its boundary, and otherwise when there are enough points for its
short sides. -/
theorem C107_corners (im : ℕ × ℕ) (num : Option ℤ) (l : List (ℝ × ℝ)) (hl : pixelBoundary im num = .ok l)
    (hn : num = none ∨ num = some 0 ∨ ∃ n : ℤ, num = some n ∧ 1 < im.1 ∧ 1 < im.2 ∧
      (im.1 : ℝ) - 1 + ((im.2 : ℝ) - 1) < n * ((im.1 : ℝ) - 1) ∧ (im.1 : ℝ) - 1 + ((im.2 : ℝ) - 1) < n * ((im.2 : ℝ) - 1)) :
    HasCorners im l := by
  have dflt : num.getD 0 = 0 → HasCorners im l := by
    intro h0
    unfold pixelBoundary at hl
    simp only [h0, if_true] at hl
    injection hl with hl
    subst hl
    intro x y hx hy
    rcases hx with rfl | rfl <;> rcases hy with rfl | rfl <;> simp
  rcases hn with rfl | rfl | ⟨n, rfl, h1, h2, h3, h4⟩
  · exact dflt rfl
  · exact dflt rfl
  have h1' : (1 : ℝ) < im.1 := by exact_mod_cast h1
  have h2' : (1 : ℝ) < im.2 := by exact_mod_cast h2
  have n0 : n ≠ 0 := by
    rintro rfl
    simp at h3
    linarith
  unfold pixelBoundary at hl
  simp only [Option.getD_some, if_neg n0] at hl
  obtain ⟨-, a, b, c, d, ha, hb, hc, hd, rfl⟩ := rectBoundary_ok hl
  have q1 : 0 < sidePts n |(im.1 : ℝ) - 1| (2 * ((im.1 : ℝ) - 1 + ((im.2 : ℝ) - 1))) := by
    rw [abs_of_pos (by linarith)]
    refine rint_pos ?_
    rw [lt_div_iff₀ (by linarith)]
    linarith
  have q2 : 0 < sidePts n |(im.2 : ℝ) - 1| (2 * ((im.1 : ℝ) - 1 + ((im.2 : ℝ) - 1))) := by
    rw [abs_of_pos (by linarith)]
    refine rint_pos ?_
    rw [lt_div_iff₀ (by linarith)]
    linarith
  intro x y hx hy
  simp only [List.mem_append]
  rcases hx with rfl | rfl <;> rcases hy with rfl | rfl
  · exact .inl (.inl (.inl (linspace_head q1 ha)))
  · exact .inr (linspace_head q2 hd)
  · exact .inl (.inl (.inr (linspace_head q2 hb)))
  · exact .inl (.inr (linspace_head q1 hc))

/-- C107: for a camera without distortion that does not see the horizon, and level ground below it, the polygon of the boundary is the
ground that the camera sees: all that is seen in the image is in the polygon, and all of the polygon is seen in the image.  Missing:
boundaries without the corners (`C107_narrow_fails`), distortion (`C107_distorted_fails`), and ground that is not level
(`C107_range_partial`, `C107_relief_fails`). -/
theorem C107_level_partial {c : FrameCam} {R : M3} {T : V3} (h : IsPinhole c R T) (hw : 0 < c.imSize.1) (hh : 0 < c.imSize.2)
    (hf : c.horizonFov = .ok false) (num : Option ℤ) (l : List (ℝ × ℝ)) (hl : pixelBoundary c.imSize num = .ok l)
    (hc : HasCorners c.imSize l) (z : ℝ) (hz : z < T 2) (clip : Bool) :
    ∃ Xs, c.worldBoundary (.scalar z) num clip = .ok Xs ∧ convexHull ℝ {X | X ∈ Xs} = SeenLevel c R T z := by
  have hext := (RayCam.of_pinhole h).ext
  have hdown : ∀ p, InIm c.imSize p → Down c R p := fun p hp => C39_rays h hf p.1 p.2 hp.1 hp.2.1 hp.2.2.1 hp.2.2.2
  have hin : ∀ p ∈ l, InIm c.imSize p := fun p hp => (C42_on_border c.imSize hw hh num l hl p hp).1
  refine ⟨_, worldBoundary_eq hext hf num l (C61_pinhole_boundary h hw hh num l hl) (.scalar z) clip, ?_⟩
  have e : (if ¬ clip = true then z else min z (T 2)) = z := by rw [min_eq_left hz.le, ite_self]
  simp only [e]
  exact hull_eq h hdown l hc hin z hz

/-- C107: so it is on a DEM that is level. -/
theorem C107_surface_partial {c : FrameCam} {R : M3} {T : V3} (h : IsPinhole c R T) (hw : 0 < c.imSize.1) (hh : 0 < c.imSize.2)
    (hf : c.horizonFov = .ok false) (num : Option ℤ) (l : List (ℝ × ℝ)) (hl : pixelBoundary c.imSize num = .ok l)
    (hc : HasCorners c.imSize l) (s : Surface) (hres : s.res.isSome = true) (hdt : s.dtypeOk = true)
    (hsh : s.shape.1 < 32767 ∧ s.shape.2 < 32767) (hi : s.interpIsEnum = true) (hm : s.minZ = s.maxZ) (hz : s.maxZ < T 2) (clip : Bool) :
    ∃ Xs, c.worldBoundary (.surface s) num clip = .ok Xs ∧ convexHull ℝ {X | X ∈ Xs} = SeenLevel c R T s.maxZ := by
  have hdown : ∀ p, InIm c.imSize p → Down c R p := fun p hp => C39_rays h hf p.1 p.2 hp.1 hp.2.1 hp.2.2.1 hp.2.2.2
  have hin : ∀ p ∈ l, InIm c.imSize p := fun p hp => (C42_on_border c.imSize hw hh num l hl p hp).1
  obtain ⟨res, hres⟩ := Option.isSome_iff_exists.1 hres
  obtain ⟨Xs, e, hXs⟩ := C80_surface (RayCam.of_pinhole h) hf num l (C61_pinhole_boundary h hw hh num l hl)
    (fun p hp => hdown p (hin p hp)) s res hres hdt hsh hi hm.le (hm.trans_lt hz).le clip (fun p _ => by
      rw [hm, min_eq_left hz.le, ite_self]
      exact Short.refl _ _)
  refine ⟨Xs, e, ?_⟩
  have : Xs = l.map fun p => c.pointAtZ R T p s.maxZ := by
    clear e hl hc hin
    induction hXs with
    | nil => rfl
    | cons hx _ ih =>
      rw [List.map_cons, ← ih]
      obtain ⟨h1, h2, -, h3, -⟩ := hx
      rw [hm] at h1
      rw [le_antisymm h2 h1] at h3
      rw [h3]
  rw [this]
  exact hull_eq h hdown l hc hin s.maxZ hz

/-- C107 does not hold for narrow images: when the number of points leaves none for the short sides, as the 400 of the mask of the DEM
do for an image of 1000 x 2 pixels, the ground seen at two of the corners is not in the polygon. -/
theorem C107_narrow_fails {c : FrameCam} {R : M3} {T : V3} (h : IsPinhole c R T) (hw : 1 < c.imSize.1) (hh : 1 < c.imSize.2)
    (hf : c.horizonFov = .ok false) (n : ℤ) (hn : 0 < n)
    (hs : n * ((c.imSize.2 : ℝ) - 1) < (c.imSize.1 : ℝ) - 1 + ((c.imSize.2 : ℝ) - 1)) (z : ℝ) (hz : z < T 2) (clip : Bool) :
    ∃ Xs, c.worldBoundary (.scalar z) (some n) clip = .ok Xs ∧ ∃ X ∈ SeenLevel c R T z, X ∉ convexHull ℝ {X | X ∈ Xs} := by
  have hw' : (1 : ℝ) < c.imSize.1 := by exact_mod_cast hw
  have hh' : (1 : ℝ) < c.imSize.2 := by exact_mod_cast hh
  have hn' : (0 : ℝ) < n := by exact_mod_cast hn
  have hdown : ∀ p, InIm c.imSize p → Down c R p := fun p hp => C39_rays h hf p.1 p.2 hp.1 hp.2.1 hp.2.2.1 hp.2.2.2
  obtain ⟨l, hl, hside⟩ : ∃ l, pixelBoundary c.imSize (some n) = .ok l ∧ ∀ p ∈ l, 0 < -1 * p.1 + 1 * p.2 + ((c.imSize.1 : ℝ) - 1) := by
    unfold pixelBoundary
    simp only [Option.getD_some, if_neg hn.ne']
    unfold rectBoundary
    generalize hwd : (c.imSize.1 : ℝ) - 1 = w at *
    generalize hhd : (c.imSize.2 : ℝ) - 1 = v at *
    have w0 : 0 < w := by linarith
    have v0 : 0 < v := by linarith
    simp only
    rw [if_neg (by linarith), abs_of_pos w0, abs_of_pos v0]
    have e0 : sidePts n v (2 * (w + v)) = 0 := by
      have hx : (n : ℝ) * v / (2 * (w + v)) < 1 / 2 := by
        rw [div_lt_iff₀ (by linarith)]; linarith
      have hx0 : 0 < (n : ℝ) * v / (2 * (w + v)) := by positivity
      obtain ⟨r1, r2⟩ := rint_bounds ((n : ℝ) * v / (2 * (w + v)))
      unfold sidePts
      have a1 : (-1 : ℝ) < (rint ((n : ℝ) * v / (2 * (w + v))) : ℝ) := by linarith
      have a2 : (rint ((n : ℝ) * v / (2 * (w + v))) : ℝ) < 1 := by linarith
      have a1' : (-1 : ℤ) < rint ((n : ℝ) * v / (2 * (w + v))) := by exact_mod_cast a1
      have a2' : rint ((n : ℝ) * v / (2 * (w + v))) < 1 := by exact_mod_cast a2
      omega
    have e1 : 0 ≤ sidePts n w (2 * (w + v)) := by
      have hx0 : 0 < (n : ℝ) * w / (2 * (w + v)) := by positivity
      obtain ⟨r1, r2⟩ := rint_bounds ((n : ℝ) * w / (2 * (w + v)))
      unfold sidePts
      have a1 : (-1 : ℝ) < (rint ((n : ℝ) * w / (2 * (w + v))) : ℝ) := by linarith
      have a1' : (-1 : ℤ) < rint ((n : ℝ) * w / (2 * (w + v))) := by exact_mod_cast a1
      omega
    obtain ⟨a, ha⟩ := linspace_ok (a := ((0 : ℝ), (0 : ℝ))) (b := (w, 0)) e1
    obtain ⟨d, hd⟩ := linspace_ok (a := (w, v)) (b := ((0 : ℝ), v)) e1
    rw [e0, ha, hd, linspace_zero, linspace_zero]
    refine ⟨_, rfl, fun p hp => ?_⟩
    simp only [List.append_nil, List.mem_append] at hp
    rcases hp with hp | hp
    · obtain ⟨t, t0, t1, rfl⟩ := (linspaceOpen_mem ha).2.2 p hp
      simp only
      nlinarith
    · obtain ⟨t, t0, t1, rfl⟩ := (linspaceOpen_mem hd).2.2 p hp
      simp only
      nlinarith [mul_nonneg t0 w0.le]
  have hin : ∀ p ∈ l, InIm c.imSize p := fun p hp => (C42_on_border c.imSize (by omega) (by omega) _ l hl p hp).1
  have hq : InIm c.imSize ((c.imSize.1 : ℝ) - 1, 0) := ⟨by simp only; linarith, by simp, by simp, by simp only; linarith⟩
  obtain ⟨q1, q2, -⟩ := (RayCam.of_pinhole h).point (hdown _ hq) z
  refine ⟨_, worldBoundary_eq (RayCam.of_pinhole h).ext hf _ l (C61_pinhole_boundary h (by omega) (by omega) _ l hl) (.scalar z) clip,
    c.pointAtZ R T ((c.imSize.1 : ℝ) - 1, 0) z, ⟨q1, _, hq, q2 hz⟩, ?_⟩
  have e : (if ¬ clip = true then z else min z (T 2)) = z := by rw [min_eq_left hz.le, ite_self]
  simp only [e]
  refine hull_side h l (fun p hp => hdown p (hin p hp)) z hz _ _ _ hside (q2 hz) ?_
  simp

theorem bulge_lt {p : ℝ × ℝ} (h : p.1 ≤ 26) (hne : ¬ (p.1 = 26 ∧ p.2 = 52)) : bulgeCam.toCam p 0 < 1 := by
  obtain ⟨h1, h2, -⟩ := bulge_spec p
  generalize bulgeCam.toCam p 0 = x at *
  generalize bulgeCam.toCam p 1 = y at *
  by_contra hc
  push Not at hc
  have hy : 0 ≤ y ^ 2 := sq_nonneg y
  have hxx : 1 ≤ x ^ 2 := by nlinarith
  have k1 : x * (1 + (x ^ 2 + y ^ 2) * (4 / 9)) ≤ 13 / 9 := by rw [h1]; linarith
  have k2 : 1 + (1 + y ^ 2) * (4 / 9) ≤ 1 + (x ^ 2 + y ^ 2) * (4 / 9) := by linarith
  have k3 : 1 + (x ^ 2 + y ^ 2) * (4 / 9) ≤ x * (1 + (x ^ 2 + y ^ 2) * (4 / 9)) := by nlinarith [bulge_pos x y]
  have y0 : y ^ 2 = 0 := by linarith
  have y0' : y = 0 := by simpa using y0
  subst y0'
  refine hne ⟨?_, ?_⟩
  · linarith
  · linarith

/-- C107 does not hold for cameras with distortion: the sides of what is seen are curved, and the ground that is seen in the middle of a
curve is not in the polygon, here with the 400 points of the mask of the DEM. -/
theorem C107_distorted_fails : ∃ (c : FrameCam) (R : M3) (T : V3) (Xs : List V3), RayCam c R T ∧ c.distort = true ∧
    (∀ x, c.camToPix x = dotK c.K (brownDistort (4 / 9) 0 0 0 0 x)) ∧ 0 < T 2 ∧
    c.worldBoundary (.scalar 0) (some 400) true = .ok Xs ∧ ∃ X ∈ SeenLevel c R T 0, X ∉ convexHull ℝ {X | X ∈ Xs} := by
  have s1 : sidePts 400 (26 : ℝ) (2 * (26 + 208)) = 22 := by
    unfold sidePts rint
    have e : ⌊((400 : ℤ) : ℝ) * 26 / (2 * (26 + 208))⌋ = 22 := by rw [Int.floor_eq_iff]; norm_num
    have f : Int.fract (((400 : ℤ) : ℝ) * 26 / (2 * (26 + 208))) < 1 / 2 := by rw [Int.fract, e]; norm_num
    simp only [e]
    rw [if_pos f]
  have s2 : sidePts 400 (208 : ℝ) (2 * (26 + 208)) = 178 := by
    unfold sidePts rint
    have e : ⌊((400 : ℤ) : ℝ) * 208 / (2 * (26 + 208))⌋ = 177 := by rw [Int.floor_eq_iff]; norm_num
    have f : 1 / 2 < Int.fract (((400 : ℤ) : ℝ) * 208 / (2 * (26 + 208))) := by rw [Int.fract, e]; norm_num
    simp only [e]
    rw [if_neg f.not_gt, if_pos f]
    norm_num
  obtain ⟨l, hl, hside⟩ : ∃ l, pixelBoundary bulgeCam.imSize (some 400) = .ok l ∧
      ∀ p ∈ l, p.1 ≤ 26 ∧ ¬ (p.1 = (26 : ℝ) ∧ p.2 = 52) := by
    unfold pixelBoundary
    simp only [Option.getD_some, if_neg (show ¬ (400 : ℤ) = 0 by norm_num)]
    unfold rectBoundary
    have w1 : ((bulgeCam.imSize.1 : ℕ) : ℝ) - 1 = 26 := by simp only [bulgeCam]; norm_num
    have h1 : ((bulgeCam.imSize.2 : ℕ) : ℝ) - 1 = 208 := by simp only [bulgeCam]; norm_num
    simp only [w1, h1]
    rw [if_neg (by norm_num), abs_of_pos (by norm_num), abs_of_pos (by norm_num), s1, s2]
    obtain ⟨a, ha⟩ := linspace_ok (a := ((0 : ℝ), (0 : ℝ))) (b := (26, 0)) (m := 22) (by norm_num)
    obtain ⟨b, hb⟩ := linspace_ok (a := ((26 : ℝ), (0 : ℝ))) (b := (26, 208)) (m := 178) (by norm_num)
    obtain ⟨c, hc⟩ := linspace_ok (a := ((26 : ℝ), (208 : ℝ))) (b := (0, 208)) (m := 22) (by norm_num)
    obtain ⟨d, hd⟩ := linspace_ok (a := ((0 : ℝ), (208 : ℝ))) (b := (0, 0)) (m := 178) (by norm_num)
    rw [ha, hb, hc, hd]
    refine ⟨_, rfl, fun p hp => ?_⟩
    simp only [List.mem_append] at hp
    rcases hp with ((hp | hp) | hp) | hp
    · obtain ⟨t, t0, t1, rfl⟩ := (linspaceOpen_mem ha).2.2 p hp
      refine ⟨by simp only; linarith, fun k => ?_⟩
      have := k.2
      norm_num at this
    · unfold linspaceOpen at hb
      rw [if_neg (by norm_num)] at hb
      injection hb with hb
      subst hb
      obtain ⟨k, -, rfl⟩ := List.mem_map.1 hp
      refine ⟨by norm_num, fun h => ?_⟩
      have := h.2
      norm_num at this
      have : (4 : ℝ) * k = 178 := by linarith
      have : 4 * k = 178 := by exact_mod_cast this
      omega
    · obtain ⟨t, t0, t1, rfl⟩ := (linspaceOpen_mem hc).2.2 p hp
      refine ⟨by simp only; linarith, fun k => ?_⟩
      have := k.2
      norm_num at this
    · obtain ⟨t, t0, t1, rfl⟩ := (linspaceOpen_mem hd).2.2 p hp
      refine ⟨by norm_num, fun k => ?_⟩
      have := k.1
      norm_num at this
  have hb : bulgeCam.boundary (some 400) = .ok l := by
    unfold FrameCam.boundary
    rw [hl, ok_bind]
    rfl
  refine ⟨bulgeCam, _, _, _, bulge_ray, rfl, fun _ => rfl, by simp, worldBoundary_eq bulge_ray.ext (horizon_nadir bulge_ray rfl) _ l hb
    (.scalar 0) true, ![10, 0, 0], ⟨by simp, _, ?_, rfl, ?_⟩, ?_⟩
  · have hc : FrameCam.unitDepth (FrameCam.camCoords (extrinsicR (0, 0, 0)) ![0, 0, 10] ![10, 0, 0]) = ![1, 0, 1] := by
      rw [FrameCam.camCoords, extrinsicR_zero]
      funext i
      fin_cases i <;> simp [FrameCam.unitDepth, flipYZ, mulVec, dotProduct, Fin.sum_univ_three]
    rw [FrameCam.projectPt, hc, bulge_toPix]
    simp only [InIm, bulgeCam]
    norm_num
  · rw [FrameCam.camCoords, extrinsicR_zero]
    simp [flipYZ, mulVec, dotProduct, Fin.sum_univ_three]
  · intro hX
    have cv : Convex ℝ {X : V3 | X 0 < 10} := by
      intro X hX Y hY a b ha hb hab
      simp only [Set.mem_ofPred_eq, Pi.add_apply, Pi.smul_apply, smul_eq_mul] at *
      rcases ha.eq_or_lt with h0 | h0
      · have : b = 1 := by linarith
        rw [← h0, this]; linarith
      · have hb' : b = 1 - a := by linarith
        subst hb'
        nlinarith
    have : (![10, 0, 0] : V3) ∈ {X : V3 | X 0 < 10} := convexHull_min ?_ cv hX
    · simp at this
    · intro Y hY
      obtain ⟨p, hp, rfl⟩ := List.mem_map.1 hY
      have hlt := bulge_lt (hside p hp).1 (hside p hp).2
      have hd := bulge_ray.depth p
      simp only [Set.mem_ofPred_eq, FrameCam.pointAtZ, extrinsicR_zero, flipYZ, mulVec, dotProduct, Fin.sum_univ_three]
      simp [hd]
      linarith

/-! ## Examples -/

/-- The boundary of the 4 x 3 camera with the 400 points of the mask, on ground 2 high. -/
example : ∃ Xs, demoCam.worldBoundary (.scalar 2) (some 400) true = .ok Xs ∧
    convexHull ℝ {X | X ∈ Xs} = SeenLevel demoCam (extrinsicR (0, 0, 0)) ![0, 0, 10] 2 := by
  have hl : ∃ l, pixelBoundary (K := ℝ) (4, 3) (some 400) = .ok l := by
    unfold pixelBoundary
    simp only [Option.getD_some, if_neg (show ¬ (400 : ℤ) = 0 by norm_num)]
    unfold rectBoundary
    have p1 : 0 ≤ sidePts 400 |(((4 : ℕ) : ℝ) - 1)| (2 * (((4 : ℕ) : ℝ) - 1 + (((3 : ℕ) : ℝ) - 1))) := by
      refine (rint_pos ?_).le; rw [abs_of_pos (by norm_num)]; norm_num
    have p2 : 0 ≤ sidePts 400 |(((3 : ℕ) : ℝ) - 1)| (2 * (((4 : ℕ) : ℝ) - 1 + (((3 : ℕ) : ℝ) - 1))) := by
      refine (rint_pos ?_).le; rw [abs_of_pos (by norm_num)]; norm_num
    simp only
    rw [if_neg (by norm_num)]
    obtain ⟨a, ha⟩ := linspace_ok (a := ((0 : ℝ), (0 : ℝ))) (b := (((4 : ℕ) : ℝ) - 1, 0)) p1
    obtain ⟨b, hb⟩ := linspace_ok (a := (((4 : ℕ) : ℝ) - 1, (0 : ℝ))) (b := (((4 : ℕ) : ℝ) - 1, ((3 : ℕ) : ℝ) - 1)) p2
    obtain ⟨c, hc⟩ := linspace_ok (a := (((4 : ℕ) : ℝ) - 1, ((3 : ℕ) : ℝ) - 1)) (b := (0, ((3 : ℕ) : ℝ) - 1)) p1
    obtain ⟨d, hd⟩ := linspace_ok (a := ((0 : ℝ), ((3 : ℕ) : ℝ) - 1)) (b := (0, 0)) p2
    rw [ha, hb, hc, hd]
    exact ⟨_, rfl⟩
  obtain ⟨l, hl⟩ := hl
  exact C107_level_partial isPinhole_demoCam (by decide) (by decide) demoCam_horizon (some 400) l hl
    (C107_corners (4, 3) (some 400) l hl (.inr (.inr ⟨400, rfl, by norm_num, by norm_num, by norm_num, by norm_num⟩))) 2
    (by simp; norm_num) true

/-- A level DEM, with the default boundary. -/
example : ∃ Xs, demoCam.worldBoundary (.surface ⟨(10, 10), true, 2, 2, some (1, -1), true, fun _ _ => .val 2⟩) none true = .ok Xs ∧
    convexHull ℝ {X | X ∈ Xs} = SeenLevel demoCam (extrinsicR (0, 0, 0)) ![0, 0, 10] 2 := by
  obtain ⟨l, hl, -, -⟩ := C42_default (K := ℝ) (4, 3) none (.inl rfl)
  exact C107_surface_partial isPinhole_demoCam (by decide) (by decide) demoCam_horizon none l hl
    (C107_corners (4, 3) none l hl (.inl rfl)) ⟨(10, 10), true, 2, 2, some (1, -1), true, fun _ _ => .val 2⟩ rfl rfl (by decide) rfl rfl
    (by simp; norm_num) true

/-- Two points are too few for the short sides of an image of 4 x 3 pixels. -/
example : ∃ Xs, demoCam.worldBoundary (.scalar 2) (some 2) true = .ok Xs ∧
    ∃ X ∈ SeenLevel demoCam (extrinsicR (0, 0, 0)) ![0, 0, 10] 2, X ∉ convexHull ℝ {X | X ∈ Xs} :=
  C107_narrow_fails isPinhole_demoCam (by decide) (by decide) demoCam_horizon 2 (by norm_num)
    (by simp only [demoCam]; norm_num) 2 (by simp; norm_num) true

end

end Verif.Dem
