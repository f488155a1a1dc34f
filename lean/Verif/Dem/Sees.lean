import Verif.Dem.Props
import Verif.Frame.WorldBoundary
import Verif.Frame.Distort

/-!
# The crop of the DEM and the ground that the camera sees (C106)
-/

set_option autoImplicit false

namespace Verif.Dem

open Matrix Verif.Frame Verif.Common Verif.Ortho
open Res (ok_bind error_bind)

noncomputable section

/-! ## Specification -/

/-- `DemIn.boundary` is that of the frame camera: `self._camera.world_boundary(z)` with its default number of points,
orthority/ortho.py:158 (C80). -/
def CameraDem (c : FrameCam) (d : DemIn ℝ) : Prop :=
  ∀ z, d.boundary z = (c.worldBoundary (.scalar z) none true).map (List.map fun X => (X 0, X 1))

/-- The camera sees the ground at the location (u, v) of the DEM, in pixels, where the ground has the elevation x. -/
def SeesGround (c : FrameCam) (R : M3) (T : V3) (d : DemIn ℝ) (u v x : ℝ) : Prop :=
  ∃ p, InIm c.imSize p ∧ SeenAt c R T ![(d.t.apply u v).1, (d.t.apply u v).2, x] p

/-! ## Lemmas -/

theorem ray_mix (M : M3) (a b p : ℝ × ℝ) (s : ℝ) (h1 : p.1 = (1 - s) * a.1 + s * b.1) (h2 : p.2 = (1 - s) * a.2 + s * b.2) (i : Fin 3) :
    (M *ᵥ homog p) i = (1 - s) * (M *ᵥ homog a) i + s * (M *ᵥ homog b) i := by
  simp only [mulVec, dotProduct, Fin.sum_univ_three, homog, Matrix.cons_val_zero, Matrix.cons_val_one, Matrix.cons_val, h1, h2]
  ring

/-- A ratio of mixed numbers is not less than both ratios. -/
theorem mix_ratio {a a2 b b2 s q : ℝ} (ha : a2 < 0) (hb : b2 < 0) (h0 : 0 ≤ s) (h1 : s ≤ 1) :
    (1 - s) * a2 + s * b2 < 0 ∧ (a * (q / a2) ≤ ((1 - s) * a + s * b) * (q / ((1 - s) * a2 + s * b2)) ∨
      b * (q / b2) ≤ ((1 - s) * a + s * b) * (q / ((1 - s) * a2 + s * b2))) := by
  have hd : (1 - s) * a2 + s * b2 < 0 := by
    rcases h0.eq_or_lt with rfl | h0
    · simpa using ha
    · nlinarith [mul_neg_of_pos_of_neg h0 hb, mul_nonneg (sub_nonneg.2 h1) (neg_nonneg.2 ha.le)]
  refine ⟨hd, ?_⟩
  by_contra hc
  push Not at hc
  obtain ⟨c1, c2⟩ := hc
  set F := ((1 - s) * a + s * b) * (q / ((1 - s) * a2 + s * b2)) with hF
  have e : F * ((1 - s) * a2 + s * b2) = ((1 - s) * a + s * b) * q := by
    rw [hF]; have := hd.ne; field_simp
  have e1 : a * q < F * a2 := by
    have : a * (q / a2) * a2 = a * q := by have := ha.ne; field_simp
    nlinarith [mul_neg_of_pos_of_neg (sub_pos.2 c1) ha]
  have e2 : b * q < F * b2 := by
    have : b * (q / b2) * b2 = b * q := by have := hb.ne; field_simp
    nlinarith [mul_neg_of_pos_of_neg (sub_pos.2 c2) hb]
  rcases h0.eq_or_lt with rfl | h0
  · simp at e; linarith
  · nlinarith [mul_pos h0 (sub_pos.2 e2), mul_nonneg (sub_nonneg.2 h1) (sub_nonneg.2 e1.le)]

/-- Rays of pixels of the image: a coordinate of where they meet a level is not less than for some corner of the image. -/
theorem corner_le (M : M3) {w h : ℝ} (hneg : ∀ x y : ℝ, (x = 0 ∨ x = w) → (y = 0 ∨ y = h) → (M *ᵥ homog (x, y)) 2 < 0)
    {p : ℝ × ℝ} (h1 : 0 ≤ p.1) (h2 : p.1 ≤ w) (h3 : 0 ≤ p.2) (h4 : p.2 ≤ h) (i : Fin 3) (q : ℝ) :
    ∃ x y : ℝ, (x = 0 ∨ x = w) ∧ (y = 0 ∨ y = h) ∧
      (M *ᵥ homog (x, y)) i * (q / (M *ᵥ homog (x, y)) 2) ≤ (M *ᵥ homog p) i * (q / (M *ᵥ homog p) 2) := by
  have frac : ∀ {t n : ℝ}, 0 ≤ t → t ≤ n → ∃ s, 0 ≤ s ∧ s ≤ 1 ∧ t = (1 - s) * 0 + s * n := by
    intro t n ht hn
    rcases (ht.trans hn).eq_or_lt with h0 | h0
    · exact ⟨0, le_rfl, zero_le_one, by linarith⟩
    · exact ⟨t / n, by positivity, (div_le_one h0).2 hn, by field_simp; ring⟩
  obtain ⟨s, s0, s1, hs⟩ := frac h1 h2
  obtain ⟨r, r0, r1, hr⟩ := frac h3 h4
  -- points of the left and right sides
  have side : ∀ x : ℝ, (x = 0 ∨ x = w) → (M *ᵥ homog (x, p.2)) 2 < 0 ∧ ∃ y : ℝ, (y = 0 ∨ y = h) ∧
      (M *ᵥ homog (x, y)) i * (q / (M *ᵥ homog (x, y)) 2) ≤ (M *ᵥ homog (x, p.2)) i * (q / (M *ᵥ homog (x, p.2)) 2) := by
    intro x hx
    have hm := ray_mix M (x, 0) (x, h) (x, p.2) r (by simp only; ring) hr
    obtain ⟨n, k⟩ := mix_ratio (a := (M *ᵥ homog (x, 0)) i) (b := (M *ᵥ homog (x, h)) i) (q := q) (hneg x 0 hx (.inl rfl))
      (hneg x h hx (.inr rfl)) r0 r1
    rw [hm 2, hm i]
    refine ⟨n, ?_⟩
    rcases k with k | k
    · exact ⟨0, .inl rfl, k⟩
    · exact ⟨h, .inr rfl, k⟩
  obtain ⟨na, ya, hya, ka⟩ := side 0 (.inl rfl)
  obtain ⟨nb, yb, hyb, kb⟩ := side w (.inr rfl)
  have hm := ray_mix M (0, p.2) (w, p.2) p s hs (by simp only; ring)
  obtain ⟨-, k⟩ := mix_ratio (a := (M *ᵥ homog (0, p.2)) i) (b := (M *ᵥ homog (w, p.2)) i) (q := q) na nb s0 s1
  rw [hm 2, hm i]
  rcases k with k | k
  · exact ⟨0, ya, .inl rfl, hya, ka.trans k⟩
  · exact ⟨w, yb, .inr rfl, hyb, kb.trans k⟩

/-- C106: where a pinhole camera sees a level is in the bounding box of where it sees the level at its default boundary. -/
theorem seen_in_box {c : FrameCam} {R : M3} {T : V3} (h : IsPinhole c R T)
    (hd : ∀ p, InIm c.imSize p → Down c R p) (l : List (ℝ × ℝ)) (hw : 0 < c.imSize.1) (hh : 0 < c.imSize.2)
    (hl : ∀ x y : ℝ, (x = 0 ∨ x = (c.imSize.1 : ℝ) - 1) → (y = 0 ∨ y = (c.imSize.2 : ℝ) - 1) → (x, y) ∈ l)
    {p : ℝ × ℝ} (hp : InIm c.imSize p) (z : ℝ) :
    InBox (l.map fun p => (c.pointAtZ R T p z 0, c.pointAtZ R T p z 1)) (c.pointAtZ R T p z 0) (c.pointAtZ R T p z 1) := by
  obtain ⟨s, ctr, -, -, -, hcam, -, -, -⟩ := h.spec
  have hw' : (0 : ℝ) ≤ (c.imSize.1 : ℝ) - 1 := by
    have : (1 : ℝ) ≤ c.imSize.1 := by exact_mod_cast hw
    linarith
  have hh' : (0 : ℝ) ≤ (c.imSize.2 : ℝ) - 1 := by
    have : (1 : ℝ) ≤ c.imSize.2 := by exact_mod_cast hh
    linarith
  have hM : ∀ p, R *ᵥ c.toCam p = (R * (kMat s ctr)⁻¹) *ᵥ homog p := by
    intro p; rw [hcam, mulVec_mulVec]
  have hneg : ∀ x y : ℝ, (x = 0 ∨ x = (c.imSize.1 : ℝ) - 1) → (y = 0 ∨ y = (c.imSize.2 : ℝ) - 1) →
      ((R * (kMat s ctr)⁻¹) *ᵥ homog (x, y)) 2 < 0 := by
    intro x y hx hy
    have : Down c R (x, y) := hd _ ⟨by rcases hx with rfl | rfl <;> simp [hw'], by rcases hx with rfl | rfl <;> simp [hw'],
      by rcases hy with rfl | rfl <;> simp [hh'], by rcases hy with rfl | rfl <;> simp [hh']⟩
    unfold Down at this
    rwa [hM] at this
  have lower : ∀ i, ∃ k ∈ l, c.pointAtZ R T k z i ≤ c.pointAtZ R T p z i := by
    intro i
    obtain ⟨x, y, hx, hy, k⟩ := corner_le (R * (kMat s ctr)⁻¹) hneg hp.1 hp.2.1 hp.2.2.1 hp.2.2.2 i (z - T 2)
    refine ⟨(x, y), hl x y hx hy, ?_⟩
    simp only [FrameCam.pointAtZ, hM]
    linarith
  have upper : ∀ i, ∃ k ∈ l, c.pointAtZ R T p z i ≤ c.pointAtZ R T k z i := by
    intro i
    obtain ⟨x, y, hx, hy, k⟩ := corner_le (R * (kMat s ctr)⁻¹) hneg hp.1 hp.2.1 hp.2.2.1 hp.2.2.2 i (-(z - T 2))
    refine ⟨(x, y), hl x y hx hy, ?_⟩
    simp only [FrameCam.pointAtZ, hM]
    simp only [neg_div, mul_neg] at k
    linarith
  obtain ⟨a, ma, ha⟩ := lower 0
  obtain ⟨b, mb, hb⟩ := upper 0
  obtain ⟨a', ma', ha'⟩ := lower 1
  obtain ⟨b', mb', hb'⟩ := upper 1
  exact ⟨⟨_, List.mem_map.2 ⟨a, ma, rfl⟩, ha⟩, ⟨_, List.mem_map.2 ⟨b, mb, rfl⟩, hb⟩, ⟨_, List.mem_map.2 ⟨a', ma', rfl⟩, ha'⟩,
    ⟨_, List.mem_map.2 ⟨b', mb', rfl⟩, hb'⟩⟩

/-- A point that is seen at a pixel whose ray points down is below the camera, and is where the ray meets its level. -/
theorem seen_point {c : FrameCam} {R : M3} {T X : V3} (h : IsPinhole c R T) {p : ℝ × ℝ} (hd : Down c R p)
    (hs : SeenAt c R T X p) : X 2 < T 2 ∧ c.pointAtZ R T p (X 2) = X := by
  obtain ⟨s, ctr, hdet, -, hpix, hcam, -, -, hR⟩ := h.spec
  obtain ⟨h1, h2⟩ := hs
  set C := FrameCam.camCoords R T X with hC
  have hray : c.toCam p = FrameCam.unitDepth C := by
    rw [← h1, FrameCam.projectPt, hpix, hcam, ← hC]
    simp only
    rw [kMat_ray s ctr hdet, dotK_kMat]
    have : FrameCam.unitDepth C 2 = 1 := by simp only [FrameCam.unitDepth]; exact div_self h2.ne'
    rw [kMat_det] at hdet
    obtain ⟨d1, d2⟩ := mul_ne_zero_iff.1 hdet
    funext i
    fin_cases i
    · simp only [this]; simp; field_simp
    · simp only [this]; simp; field_simp
    · simpa using this.symm
  have hX : ∀ i, X i - T i = (R *ᵥ c.toCam p) i * C 2 := by
    intro i
    have e : C = C 2 • c.toCam p := by
      rw [hray]
      funext i
      simp only [FrameCam.unitDepth, Pi.smul_apply, smul_eq_mul]
      field_simp
    have : R *ᵥ C = X - T := by
      rw [hC, FrameCam.camCoords, mulVec_mulVec, hR.orth', one_mulVec]
    rw [← Pi.sub_apply, ← this, e, mulVec_smul, ← e]
    simp only [Pi.smul_apply, smul_eq_mul]
    ring
  have hz := hX 2
  have hneg : (R *ᵥ c.toCam p) 2 < 0 := hd
  refine ⟨by nlinarith [mul_neg_of_neg_of_pos hneg h2], ?_⟩
  funext i
  have := hX i
  simp only [FrameCam.pointAtZ]
  rw [hz, mul_div_cancel_left₀ _ hneg.ne, ← hX]
  ring

/-- The boundary of a camera that does not see the horizon, as used for the DEM. -/
theorem dem_rays {c : FrameCam} {R : M3} {T : V3} (h : IsPinhole c R T) (hw : 0 < c.imSize.1) (hh : 0 < c.imSize.2)
    {d : DemIn ℝ} (hb : CameraDem c d) {z : ℝ} {l₀} (hok : d.boundary z = .ok l₀) :
    (∀ p, InIm c.imSize p → Down c R p) ∧ ∃ rays, (∀ z, d.boundary z = .ok (rayBoundary rays (T 2) z)) ∧
      ∀ p, InIm c.imSize p → ∀ z, z ≤ T 2 → InBox (rayBoundary rays (T 2) z) (c.pointAtZ R T p z 0) (c.pointAtZ R T p z 1) := by
  have hext := (RayCam.of_pinhole h).ext
  have hf : c.horizonFov = .ok false := by
    rcases horizon_cases hext with hf | hf
    · exact hf
    · rw [hb, worldBoundary_horizon hext hf] at hok
      cases hok
  have hdown : ∀ p, InIm c.imSize p → Down c R p := fun p hp => C39_rays h hf p.1 p.2 hp.1 hp.2.1 hp.2.2.1 hp.2.2.2
  obtain ⟨l, hl, -, hmem⟩ := C42_default (K := ℝ) c.imSize none (.inl rfl)
  have hbd := C61_pinhole_boundary h hw hh none l hl
  have hw' : (1 : ℝ) ≤ c.imSize.1 := by exact_mod_cast hw
  have hh' : (1 : ℝ) ≤ c.imSize.2 := by exact_mod_cast hh
  obtain ⟨rays, hr⟩ := C54_frame_rays c R T l (T 2)
  refine ⟨hdown, rays, fun z => ?_, fun p hp z hz => ?_⟩
  · rw [hb, worldBoundary_eq hext hf none l hbd, hr]
    simp only [not_true, if_false]
    show Except.ok _ = _
    rw [List.map_map]
    rfl
  · rw [hr, min_eq_left hz]
    have h8 : l = boundary8 c.imSize := by
      unfold pixelBoundary at hl
      simpa [boundary8] using hl.symm
    refine seen_in_box h hdown l hw hh (fun x y hx hy => ?_) hp z
    rw [h8]
    rcases hx with rfl | rfl <;> rcases hy with rfl | rfl <;> simp [boundary8]

theorem has_cell {win : IWin} {u v : ℝ} {r c : ℕ} (h : win.Has u v) (h1 : (c : ℝ) < u) (h2 : u < c + 1) (h3 : (r : ℝ) < v)
    (h4 : v < r + 1) : win.colOff ≤ c ∧ (c : ℤ) < win.colOff + win.width ∧ win.rowOff ≤ r ∧ (r : ℤ) < win.rowOff + win.height := by
  obtain ⟨a1, a2, a3, a4⟩ := h
  have b1 : (win.colOff : ℝ) < ((c : ℤ) + 1 : ℤ) := by push_cast; linarith
  have b2 : (((c : ℤ) : ℤ) : ℝ) < (win.colOff + win.width : ℤ) := by push_cast at a2 ⊢; linarith
  have b3 : (win.rowOff : ℝ) < ((r : ℤ) + 1 : ℤ) := by push_cast; linarith
  have b4 : (((r : ℤ) : ℤ) : ℝ) < (win.rowOff + win.height : ℤ) := by push_cast at a4 ⊢; linarith
  have := Int.cast_lt.1 b1
  have := Int.cast_lt.1 b2
  have := Int.cast_lt.1 b3
  have := Int.cast_lt.1 b4
  omega

/-! ## Theorems -/

/-- C106: the crop of the DEM keeps all ground that a camera without distortion sees, when the DEM has the horizontal CRS of the world,
and the elevation in the world follows from that in the DEM (`g`, the same everywhere and increasing: a change of units, or a constant
shift of the datum): every pixel of the DEM, with an elevation in the range that is searched, that the camera sees some of, is in the
cropped DEM, with its elevation (in float32) and at its place.  Missing: cameras with distortion (`C106_distorted_fails`), other vertical
datums (`C106_datum_fails`).  DEMs in other horizontal CRSs are in `C106_crs_partial`. -/
theorem C106_pinhole_partial {c : FrameCam} {R : M3} {T : V3} (h : IsPinhole c R T) (hw : 0 < c.imSize.1) (hh : 0 < c.imSize.2)
    (d : DemIn ℝ) (hb : CameraDem c d) (hcrs : d.crsEqual = true ∨ ∀ b, d.tb b = .ok b) (g : ℝ → ℝ) (hg : Monotone g)
    (hz : ∀ x y e, d.zmap x y (some e) = g e) (o : DemOut ℝ) (ho : initDem d = .ok o) (row col : ℕ) (hrow : row < d.h) (hcol : col < d.w) (x : ℝ)
    (hx : d.val row col = some x) (hlo : d.zlo ≤ g x) (hhi : g x ≤ d.zhi) (u v : ℝ) (hu : col < u ∧ u < col + 1)
    (hv : row < v ∧ v < row + 1) (hs : SeesGround c R T d u v (g x)) :
    ∃ row' col' : ℕ, row' < o.h ∧ col' < o.w ∧ o.arr row' col' = some (d.f32 x) ∧
      ∀ a b : ℝ, o.t.apply (col' + a) (row' + b) = d.t.apply (col + a) (row + b) := by
  obtain ⟨first, win₂, win, e1, e2, e3, rfl⟩ := initDem_ok ho
  obtain ⟨b₁, hb₁, k1⟩ := winAtZs_has e1
  obtain ⟨b₂, hb₂, k2⟩ := winAtZs_has e2
  have hok : ∃ l₀, d.boundary d.zlo = .ok l₀ := by
    cases hq : d.boundary d.zlo with
    | ok l₀ => exact ⟨l₀, rfl⟩
    | error e =>
      unfold demBounds stackBoundary at hb₁
      rw [hq] at hb₁
      cases hb₁
  obtain ⟨l₀, hok⟩ := hok
  obtain ⟨hdown, rays, hrays, hbox⟩ := dem_rays h hw hh hb hok
  obtain ⟨p, hp, hseen⟩ := hs
  obtain ⟨hlt, hpt⟩ := seen_point h (hdown p hp) hseen
  have hbx : InBox ([g x].flatMap (rayBoundary rays (T 2))) (d.t.apply u v).1 (d.t.apply u v).2 := by
    have := hbox p hp (g x) hlt.le
    have g0 := congrFun hpt 0
    have g1 := congrFun hpt 1
    simp only [Matrix.cons_val_zero, Matrix.cons_val_one, Matrix.cons_val] at g0 g1
    rw [g0, g1] at this
    simpa using this
  have unfoldB : ∀ {zs : List ℝ} {b : Bnds ℝ}, demBounds d zs = .ok b →
      boundsOf (zs.flatMap (rayBoundary rays (T 2))) = .ok b := by
    intro zs b hd
    unfold demBounds at hd
    rw [stack_ok hrays, Res.ok_bind] at hd
    cases hq : boundsOf (zs.flatMap (rayBoundary rays (T 2))) with
    | error e => rw [hq] at hd; cases hd
    | ok b' =>
      rw [hq, Res.ok_bind] at hd
      rcases hcrs with hcrs | hcrs
      · rw [hcrs] at hd; exact hd
      · rw [hcrs, ite_self] at hd; exact hd
  have hcol' : (col : ℝ) + 1 ≤ d.w := by exact_mod_cast hcol
  have hrow' : (row : ℝ) + 1 ≤ d.h := by exact_mod_cast hrow
  have u0 : 0 ≤ u := (Nat.cast_nonneg col).trans hu.1.le
  have v0 : 0 ≤ v := (Nat.cast_nonneg row).trans hv.1.le
  have u1 : u ≤ d.w := by linarith [hu.2]
  have v1 : v ≤ d.h := by linarith [hv.2]
  have f1 : first.Has u v := k1 u v u0 u1 v0 v1 (boundsOf_has (unfoldB hb₁) (box_nested rays _ _ _ [g x] (by simp [hlo, hhi]) _ _ hbx))
  obtain ⟨q1, q2, q3, q4⟩ := has_cell f1 hu.1 hu.2 hv.1 hv.2
  -- the pixel is in the window that is read first, so its elevation is between the extremes
  obtain ⟨lo, hi, -, -, -, -, hzs, hext⟩ := C54_extremes d first e1
  have hread : readWin d first (row - first.rowOff).toNat (col - first.colOff).toNat = some x := by
    unfold readWin
    rw [Int.toNat_of_nonneg (by omega), Int.toNat_of_nonneg (by omega)]
    simpa using hx
  obtain ⟨⟨a, ha, hax⟩, ⟨b, hb', hxb⟩⟩ := hext _ _ (by omega) (by omega) x hread
  rw [List.map_cons, List.map_cons, List.map_nil, ha, hb', hz, hz] at hzs
  rw [hzs] at hb₂
  have f2 : win₂.Has u v := k2 u v u0 u1 v0 v1 (boundsOf_has (unfoldB hb₂) (box_nested rays _ _ _ [g x] (by simp [hg hax, hg hxb]) _ _ hbx))
  obtain ⟨-, hin, s1, s2, hi'⟩ := interI_ok (K := ℝ) e3
  obtain ⟨p1, p2, p3, p4⟩ := has_cell (hi' u v f2 f1) hu.1 hu.2 hv.1 hv.2
  obtain ⟨i1, i2, i3, i4⟩ := hin
  refine ⟨(row - win.rowOff).toNat, (col - win.colOff).toNat, ?_, ?_, ?_, fun a b => ?_⟩
  · simp only [cropDem]; omega
  · simp only [cropDem]; omega
  · simp only [cropDem, readWin]
    have r1 : (first.rowOff + ((win.rowOff - first.rowOff + ((row - win.rowOff).toNat : ℤ)).toNat : ℤ)).toNat = row := by omega
    have r2 : (first.colOff + ((win.colOff - first.colOff + ((col - win.colOff).toNat : ℤ)).toNat : ℤ)).toNat = col := by omega
    rw [r1, r2, hx]
    rfl
  · simp only [cropDem, Affine.window_apply]
    have r1 : (((row - win.rowOff).toNat : ℕ) : ℝ) = row - win.rowOff := by
      have : (((row - win.rowOff).toNat : ℕ) : ℤ) = row - win.rowOff := Int.toNat_of_nonneg (by omega)
      exact_mod_cast this
    have r2 : (((col - win.colOff).toNat : ℕ) : ℝ) = col - win.colOff := by
      have : (((col - win.colOff).toNat : ℕ) : ℤ) = col - win.colOff := Int.toNat_of_nonneg (by omega)
      exact_mod_cast this
    rw [r1, r2]
    congr 1 <;> ring

/-! ## Where the crop loses ground -/

theorem lmax_le {x r : ℝ} {l : List ℝ} (hx : x ≤ r) (hl : ∀ y ∈ l, y ≤ r) : lmax x l ≤ r := by
  unfold lmax
  induction l generalizing x with
  | nil => exact hx
  | cons a l ih => exact ih (max_le hx (hl a (by simp))) fun y hy => hl y (by simp [hy])

/-- The window of a DEM of two rows, from (0, 1), when the bounds reach over its left, upper and lower sides. -/
theorem crop_right (d : DemIn ℝ) (zs : List ℝ) (pts : List (ℝ × ℝ)) (hst : stackBoundary d.boundary zs = .ok pts)
    (htb : ∀ b, (if d.crsEqual then Except.ok b else d.tb b) = .ok b) (ht : d.t = ⟨1, 0, 0, 0, -1, 1⟩) (hh : d.h = 2)
    (h1 : ∃ p ∈ pts, p.1 ≤ 0) (h2 : ∃ p ∈ pts, 1 ≤ p.2) (h3 : ∃ p ∈ pts, p.2 ≤ -1) (n : ℕ) (hn : 0 < n) (hnw : n ≤ d.w)
    (h4 : ∀ p ∈ pts, p.1 ≤ n) (h5 : ∃ p ∈ pts, (n : ℝ) - 1 < p.1) : winAtZs d zs = .ok ⟨0, 0, n, 2⟩ := by
  obtain ⟨b, hb, b1, b2, b3, b4, b5⟩ : ∃ b, boundsOf pts = .ok b ∧ b.left ≤ 0 ∧ 1 ≤ b.top ∧ b.bottom ≤ -1 ∧ b.right ≤ n ∧
      (n : ℝ) - 1 < b.right := by
    cases pts with
    | nil => obtain ⟨p, hp, -⟩ := h1; cases hp
    | cons q l =>
      have low : ∀ (g : ℝ × ℝ → ℝ), ∀ p ∈ q :: l, lmin (g q) (l.map g) ≤ g p := by
        intro g p hp
        rcases List.mem_cons.1 hp with rfl | hp
        · exact (lmin_le _ _).1
        · exact (lmin_le _ _).2 _ (List.mem_map.2 ⟨p, hp, rfl⟩)
      have upp : ∀ (g : ℝ × ℝ → ℝ), ∀ p ∈ q :: l, g p ≤ lmax (g q) (l.map g) := by
        intro g p hp
        rcases List.mem_cons.1 hp with rfl | hp
        · exact (le_lmax _ _).1
        · exact (le_lmax _ _).2 _ (List.mem_map.2 ⟨p, hp, rfl⟩)
      obtain ⟨p1, m1, g1⟩ := h1
      obtain ⟨p2, m2, g2⟩ := h2
      obtain ⟨p3, m3, g3⟩ := h3
      obtain ⟨p5, m5, g5⟩ := h5
      refine ⟨_, rfl, (low Prod.fst _ m1).trans g1, g2.trans (upp Prod.snd _ m2), (low Prod.snd _ m3).trans g3, ?_,
        g5.trans_le (upp Prod.fst _ m5)⟩
      exact lmax_le (h4 q (by simp)) fun y hy => by
        obtain ⟨p, hp, rfl⟩ := List.mem_map.1 hy
        exact h4 p (by simp [hp])
  have hn1 : (1 : ℝ) ≤ n := by exact_mod_cast hn
  have hwn : (n : ℝ) ≤ d.w := by exact_mod_cast hnw
  have hd : demBounds d zs = .ok b := by
    unfold demBounds
    rw [hst, ok_bind, hb, ok_bind]
    exact htb b
  unfold winAtZs
  rw [hd, ok_bind, ht, fromBounds_northUp ⟨by norm_num, rfl, rfl, by norm_num⟩ (by linarith) (by linarith), ok_bind]
  simp only [RWin.inter, hh, zero_add, sub_zero, div_one]
  have e1 : max (0 : ℝ) b.left = 0 := max_eq_left b1
  have e2 : min (d.w : ℝ) (b.left + (b.right - b.left)) = b.right := by
    rw [add_sub_cancel]; exact min_eq_right (b4.trans hwn)
  have e3 : max (0 : ℝ) ((b.top - 1) / -1) = 0 := max_eq_left (by rw [div_neg, div_one]; linarith)
  have e4 : min (((2 : ℕ) : ℝ)) ((b.top - 1) / -1 + (b.bottom - b.top) / -1) = 2 := by
    rw [div_neg, div_neg, div_one, div_one]
    rw [min_eq_left]
    · norm_num
    · push_cast; linarith
  rw [e1, e2, e3, e4, if_neg (by push Not; constructor <;> linarith)]
  simp only [expandWindowToGrid, sub_zero, Int.cast_zero, mul_zero, add_zero, Int.floor_zero, Int.fract_zero]
  have c1 : ⌈b.right⌉ = (n : ℤ) := by
    rw [Int.ceil_eq_iff]
    exact ⟨by push_cast; linarith, by push_cast; linarith⟩
  have c2 : ⌈(2 : ℝ)⌉ = 2 := by norm_num
  rw [c1, c2]

/-- A DEM of two rows, of unit pixels from (0, 1), and the elevations and vertical datum of the world in it, under the camera. -/
def stripDem (c : FrameCam) (w : ℕ) (zlo : ℝ) (val : ℕ → ℝ) (crsEqual : Bool) (zmap : ℝ → ℝ → Pix ℝ → ℝ) : DemIn ℝ where
  t := ⟨1, 0, 0, 0, -1, 1⟩
  w := w
  h := 2
  val _ col := some (val col)
  crsEqual := crsEqual
  tb := .ok
  boundary z := (c.worldBoundary (.scalar z) none true).map (List.map fun X => (X 0, X 1))
  zlo := zlo
  zhi := 5
  zmap := zmap
  f32 x := x

theorem stripDem_ok (c : FrameCam) (w : ℕ) (zlo : ℝ) (val : ℕ → ℝ) (crsEqual : Bool) (zmap : ℝ → ℝ → Pix ℝ → ℝ) (n : ℕ) (hn : n ≤ w)
    (hn0 : 0 < n) (h1 : winAtZs (stripDem c w zlo val crsEqual zmap) [zlo, 5] = .ok ⟨0, 0, w, 2⟩)
    (h2 : winAtZs (stripDem c w zlo val crsEqual zmap) (demZs (stripDem c w zlo val crsEqual zmap) ⟨0, 0, w, 2⟩) = .ok ⟨0, 0, n, 2⟩) :
    ∃ o, initDem (stripDem c w zlo val crsEqual zmap) = .ok o ∧ o.w = n ∧ ∀ a b, o.t.apply a b = (a, 1 - b) := by
  refine ⟨cropDem (stripDem c w zlo val crsEqual zmap) ⟨0, 0, w, 2⟩ ⟨0, 0, n, 2⟩, ?_, by simp [cropDem], fun a b => ?_⟩
  · unfold initDem
    rw [show (stripDem c w zlo val crsEqual zmap).zlo = zlo from rfl, show (stripDem c w zlo val crsEqual zmap).zhi = 5 from rfl, h1,
      ok_bind, h2, ok_bind]
    have : interI ⟨0, 0, n, 2⟩ ⟨0, 0, w, 2⟩ = .ok ⟨0, 0, n, 2⟩ := by
      have hm : min (n : ℤ) w = n := min_eq_left (by exact_mod_cast hn)
      simp only [interI, max_self, zero_add, hm, min_self, sub_zero]
      rw [if_neg]
      push Not
      exact ⟨by exact_mod_cast hn0, by norm_num⟩
    rw [this, ok_bind]
  · simp only [cropDem, Affine.window_apply]
    simp only [stripDem, Affine.apply]
    refine Prod.ext ?_ ?_ <;> simp
    ring

/-- World points of the boundary of a camera that looks down from (0, 0, 10). -/
theorem nadir_boundary {c : FrameCam} (h : RayCam c (extrinsicR (0, 0, 0)) ![0, 0, 10]) (hh : c.horizonFov = .ok false)
    (hb : c.boundary none = .ok (boundary8 c.imSize)) (w : ℕ) (zlo : ℝ) (val : ℕ → ℝ) (crsEqual : Bool) (zmap : ℝ → ℝ → Pix ℝ → ℝ)
    (z : ℝ) : (stripDem c w zlo val crsEqual zmap).boundary z = .ok ((boundary8 c.imSize).map fun p =>
      (c.toCam p 0 * (10 - min z 10), -(c.toCam p 1 * (10 - min z 10)))) := by
  simp only [stripDem]
  rw [worldBoundary_eq h.ext hh none _ hb]
  simp only [not_true, if_false]
  show Except.ok _ = _
  rw [List.map_map]
  congr 1
  refine List.map_congr_left fun p _ => ?_
  have hd := h.depth p
  have e : (min z 10 - 10) / -1 = 10 - min z 10 := by rw [div_neg, div_one]; ring
  simp only [Function.comp, FrameCam.pointAtZ, extrinsicR_zero, flipYZ, mulVec, dotProduct, Fin.sum_univ_three]
  simp [hd, e]

/-- A camera that looks down sees a point where its ray is that of a pixel. -/
theorem nadir_sees {c : FrameCam} {d : DemIn ℝ} {u v x : ℝ} (hx : x < 10)
    (hp : InIm c.imSize (c.toPix ![(d.t.apply u v).1 / (10 - x), -((d.t.apply u v).2 / (10 - x)), 1])) :
    SeesGround c (extrinsicR (0, 0, 0)) ![0, 0, 10] d u v x := by
  have hx' : 10 - x ≠ 0 := by linarith
  have hc : FrameCam.camCoords (extrinsicR (0, 0, 0)) ![0, 0, 10] ![(d.t.apply u v).1, (d.t.apply u v).2, x] =
      ![(d.t.apply u v).1, -(d.t.apply u v).2, 10 - x] := by
    rw [FrameCam.camCoords, extrinsicR_zero]
    funext i
    fin_cases i <;> simp [flipYZ, mulVec, dotProduct, Fin.sum_univ_three]
  refine ⟨_, hp, ?_, ?_⟩
  · rw [FrameCam.projectPt, hc]
    congr 1
    funext i
    fin_cases i <;> simp [FrameCam.unitDepth, neg_div, div_self hx']
  · rw [hc]; simpa using hx

theorem brown_exists (k : ℝ) (hk : 0 ≤ k) (p : ℝ × ℝ) :
    ∃ q : ℝ × ℝ, q.1 * (1 + (q.1 ^ 2 + q.2 ^ 2) * k) = p.1 ∧ q.2 * (1 + (q.1 ^ 2 + q.2 ^ 2) * k) = p.2 := by
  have hc : ContinuousOn (fun s : ℝ => s * (1 + s ^ 2 * (p.1 ^ 2 + p.2 ^ 2) * k)) (Set.Icc 0 1) := by fun_prop
  have := intermediate_value_Icc (zero_le_one) hc
  obtain ⟨s, -, hs⟩ := this (show (1 : ℝ) ∈ _ from ⟨by simp, by simp; positivity⟩)
  simp only at hs
  refine ⟨(s * p.1, s * p.2), ?_, ?_⟩
  · show s * p.1 * (1 + ((s * p.1) ^ 2 + (s * p.2) ^ 2) * k) = p.1
    linear_combination p.1 * hs
  · show s * p.2 * (1 + ((s * p.1) ^ 2 + (s * p.2) ^ 2) * k) = p.2
    linear_combination p.2 * hs

/-- A Brown camera with `k1 = 4 / 9` that looks down from (0, 0, 10), with 27 x 209 pixels, and its principal point at (13, 52).  The
inverse of the distortion is exact. -/
def bulgeCam : FrameCam where
  imSize := (27, 209)
  K := kMat (9, 9) (13, 52)
  Kund := kMat (9, 9) (13, 52)
  KundInv := (kMat (9, 9) (13, 52))⁻¹
  ext := some (extrinsicR (0, 0, 0), ![0, 0, 10])
  distort := true
  camToPix x := dotK (kMat (9, 9) (13, 52)) (brownDistort (4 / 9) 0 0 0 0 x)
  pixToCam p := ![(brown_exists (4 / 9) (by norm_num) ((p.1 - 13) / 9, (p.2 - 52) / 9)).choose.1,
    (brown_exists (4 / 9) (by norm_num) ((p.1 - 13) / 9, (p.2 - 52) / 9)).choose.2, 1]

theorem bulge_spec (p : ℝ × ℝ) :
    bulgeCam.toCam p 0 * (1 + (bulgeCam.toCam p 0 ^ 2 + bulgeCam.toCam p 1 ^ 2) * (4 / 9)) = (p.1 - 13) / 9 ∧
      bulgeCam.toCam p 1 * (1 + (bulgeCam.toCam p 0 ^ 2 + bulgeCam.toCam p 1 ^ 2) * (4 / 9)) = (p.2 - 52) / 9 ∧
      bulgeCam.toCam p 2 = 1 :=
  ⟨(brown_exists (4 / 9) (by norm_num) ((p.1 - 13) / 9, (p.2 - 52) / 9)).choose_spec.1,
    (brown_exists (4 / 9) (by norm_num) ((p.1 - 13) / 9, (p.2 - 52) / 9)).choose_spec.2, rfl⟩

theorem bulge_toPix (x y : ℝ) : bulgeCam.toPix ![x, y, 1] =
    (9 * (x * (1 + (x ^ 2 + y ^ 2) * (4 / 9))) + 13, 9 * (y * (1 + (x ^ 2 + y ^ 2) * (4 / 9))) + 52) := by
  show dotK (kMat (9, 9) (13, 52)) (brownDistort (4 / 9) 0 0 0 0 ![x, y, 1]) = _
  simp only [dotK, kMat, brownDistort, mulVec, dotProduct, Fin.sum_univ_three]
  simp

theorem bulge_ray : RayCam bulgeCam (extrinsicR (0, 0, 0)) ![0, 0, 10] := by
  refine ⟨rfl, (RayCam.of_pinhole isPinhole_demoCam).rot, fun p => (bulge_spec p).2.2, fun p => ?_⟩
  obtain ⟨h1, h2, h3⟩ := bulge_spec p
  have : bulgeCam.toCam p = ![bulgeCam.toCam p 0, bulgeCam.toCam p 1, 1] := by
    funext i
    fin_cases i
    · rfl
    · rfl
    · exact h3
  rw [this, bulge_toPix, h1, h2]
  refine Prod.ext ?_ ?_ <;> simp only <;> ring

theorem horizon_nadir {c : FrameCam} (h : RayCam c (extrinsicR (0, 0, 0)) ![0, 0, 10]) (hd : c.distort = true) :
    c.horizonFov = .ok false := by
  unfold FrameCam.horizonFov
  have hi : c.testInit = .ok (extrinsicR (0, 0, 0), ![0, 0, 10]) := by simp [FrameCam.testInit, h.ext]
  rw [hi, ok_bind]
  show Except.ok _ = _
  congr 1
  rw [decide_eq_false_iff_not]
  rintro ⟨p, -, hp⟩
  have h2 : c.pixToCam p 2 = 1 := by have := h.depth p; rwa [FrameCam.toCam, if_pos hd] at this
  rw [extrinsicR_zero] at hp
  simp [flipYZ, mulVec, dotProduct, Fin.sum_univ_three, h2] at hp
  linarith

theorem boundary_distort {c : FrameCam} (hd : c.distort = true) : c.boundary none = .ok (boundary8 c.imSize) := by
  unfold FrameCam.boundary pixelBoundary
  simp only [hd, if_true]
  rfl

theorem bulge_pos (x y : ℝ) : 0 < 1 + (x ^ 2 + y ^ 2) * (4 / 9) := by positivity

theorem bulge_line {p : ℝ × ℝ} {k : ℝ} (h : p.2 - 52 = k * (p.1 - 13)) : bulgeCam.toCam p 1 = k * bulgeCam.toCam p 0 := by
  obtain ⟨h1, h2, -⟩ := bulge_spec p
  have := bulge_pos (bulgeCam.toCam p 0) (bulgeCam.toCam p 1)
  refine mul_right_cancel₀ this.ne' ?_
  rw [h2, mul_assoc, h1, h]
  ring

theorem bulge_side {p : ℝ × ℝ} (h1 : p.1 = 26) {k : ℝ} (h : p.2 - 52 = k * (p.1 - 13)) (hk : 16 ≤ k ^ 2) :
    bulgeCam.toCam p 0 ≤ 1 / 2 := by
  obtain ⟨g1, -, -⟩ := bulge_spec p
  rw [bulge_line h, h1] at g1
  generalize bulgeCam.toCam p 0 = x at g1
  by_contra hc
  push Not at hc
  have a1 : 1 / 4 < x ^ 2 := by nlinarith
  have a2 : 4 ≤ k ^ 2 * x ^ 2 := by nlinarith
  have a3 : 17 / 9 < (x ^ 2 + (k * x) ^ 2) * (4 / 9) := by rw [mul_pow]; linarith
  nlinarith

/-- C106 does not hold for cameras with distortion, as the bounds are those of eight points on the side of the image: a pixel of the
DEM that the camera sees is lost, though the DEM has the CRS and the vertical datum of the world. -/
theorem C106_distorted_fails : ∃ (c : FrameCam) (R : M3) (T : V3) (d : DemIn ℝ) (o : DemOut ℝ), RayCam c R T ∧ c.distort = true ∧
    (∀ x, c.camToPix x = dotK c.K (brownDistort (4 / 9) 0 0 0 0 x)) ∧ CameraDem c d ∧ d.crsEqual = true ∧
    (∀ x y e, d.zmap x y (some e) = e) ∧ initDem d = .ok o ∧ ∃ row col : ℕ, row < d.h ∧ col < d.w ∧ ∃ x, d.val row col = some x ∧
      d.zlo ≤ x ∧ x ≤ d.zhi ∧ SeesGround c R T d (col + 1 / 2) (row + 1 / 2) x ∧
      ∀ row' col' : ℕ, col' < o.w → o.t.apply (col' + 1 / 2) (row' + 1 / 2) ≠ d.t.apply (col + 1 / 2) (row + 1 / 2) := by
  set d := stripDem bulgeCam 10 (-10) (fun _ => 0) true (fun _ _ e => e.getD 0) with hd
  have hbd : ∀ z, d.boundary z = _ := nadir_boundary bulge_ray (horizon_nadir bulge_ray rfl) (boundary_distort rfl) 10 (-10) (fun _ => 0)
    true (fun _ _ e => e.getD 0)
  have hst := stack_ok hbd
  -- rays of the eight points
  have hx : ∀ p ∈ boundary8 bulgeCam.imSize, bulgeCam.toCam p 0 ≤ 1 / 2 := by
    intro p hp
    obtain ⟨h1, h2, -⟩ := bulge_spec p
    have hpos := bulge_pos (bulgeCam.toCam p 0) (bulgeCam.toCam p 1)
    have left : p.1 ≤ 13 → bulgeCam.toCam p 0 ≤ 1 / 2 := by
      intro hl
      by_contra hc
      push Not at hc
      have := mul_pos (show 0 < bulgeCam.toCam p 0 by linarith) hpos
      rw [h1] at this
      linarith
    simp only [boundary8, show bulgeCam.imSize = (27, 209) from rfl, List.mem_cons, List.not_mem_nil, or_false] at hp
    rcases hp with rfl | rfl | rfl | rfl | rfl | rfl | rfl | rfl
    · exact left (by norm_num)
    · exact left (by norm_num)
    · exact bulge_side (k := -4) (by norm_num) (by norm_num) (by norm_num)
    · exact bulge_side (k := 4) (by norm_num) (by norm_num) (by norm_num)
    · exact bulge_side (k := 12) (by norm_num) (by norm_num) (by norm_num)
    · exact left (by norm_num)
    · exact left (by norm_num)
    · exact left (by norm_num)
  have hmid : 19 / 40 < bulgeCam.toCam (26, 104) 0 := by
    obtain ⟨h1, -, -⟩ := bulge_spec (26, 104)
    rw [bulge_line (k := 4) (by norm_num)] at h1
    generalize bulgeCam.toCam (26, 104) 0 = x at h1
    by_contra hc
    push Not at hc
    norm_num at h1
    rcases le_or_gt x 0 with h0 | h0
    · nlinarith [mul_nonneg (neg_nonneg.2 h0) (bulge_pos x (4 * x)).le]
    · have : x ^ 2 ≤ (19 / 40) ^ 2 := by gcongr
      nlinarith
  have hleft : bulgeCam.toCam (0, 0) 0 ≤ 0 := by
    obtain ⟨h1, h2, -⟩ := bulge_spec (0, 0)
    set x := bulgeCam.toCam (0, 0) 0
    set y := bulgeCam.toCam (0, 0) 1
    by_contra hc
    push Not at hc
    norm_num at h1
    have : 0 ≤ x * (1 + (x ^ 2 + y ^ 2) * (4 / 9)) := by positivity
    linarith
  have htop : bulgeCam.toCam (0, 0) 1 ≤ -1 := by
    obtain ⟨h1, -, -⟩ := bulge_spec (0, 0)
    have hl := bulge_line (p := (0, 0)) (k := 4) (by norm_num)
    rw [hl] at h1 ⊢
    generalize bulgeCam.toCam (0, 0) 0 = x at h1
    by_contra hc
    push Not at hc
    norm_num at h1
    rcases le_or_gt 0 x with h0 | h0
    · nlinarith [mul_nonneg h0 (bulge_pos x (4 * x)).le]
    · have : x ^ 2 ≤ (1 / 4) ^ 2 := by nlinarith
      nlinarith
  have hbot : 1 ≤ bulgeCam.toCam (26, 104) 1 := by
    rw [bulge_line (p := (26, 104)) (k := 4) (by norm_num)]
    linarith
  have hm0 : ((0 : ℝ), (0 : ℝ)) ∈ boundary8 bulgeCam.imSize := by simp [boundary8]
  have hm1 : ((26 : ℝ), (104 : ℝ)) ∈ boundary8 bulgeCam.imSize := by simp [boundary8, bulgeCam]; norm_num
  have key : ∀ (zs : List ℝ) (z : ℝ), z ∈ zs → z ≤ 9 → (∀ z' ∈ zs, z ≤ z' ∧ z' ≤ 9) → ∀ n : ℕ, n ≤ 10 → (n : ℝ) = (10 - z) / 2 →
      10 - z ≤ 20 → winAtZs d zs = .ok ⟨0, 0, n, 2⟩ := by
    intro zs z hz hz9 hle n hn10 hn h20
    have hp : ∀ p ∈ boundary8 bulgeCam.imSize, (bulgeCam.toCam p 0 * (10 - min z 10), -(bulgeCam.toCam p 1 * (10 - min z 10))) ∈
        zs.flatMap fun z => (boundary8 bulgeCam.imSize).map fun p =>
          (bulgeCam.toCam p 0 * (10 - min z 10), -(bulgeCam.toCam p 1 * (10 - min z 10))) :=
      fun p hp => List.mem_flatMap.2 ⟨z, hz, List.mem_map.2 ⟨p, hp, rfl⟩⟩
    have hmin : min z 10 = z := min_eq_left (by linarith)
    rw [hmin] at hp
    refine crop_right d zs _ (hst zs) (fun b => rfl) rfl rfl ⟨_, hp _ hm0, ?_⟩ ⟨_, hp _ hm0, ?_⟩ ⟨_, hp _ hm1, ?_⟩ n ?_ hn10 ?_
      ⟨_, hp _ hm1, ?_⟩
    · simp only; nlinarith
    · simp only; nlinarith
    · simp only; nlinarith
    · have : (0 : ℝ) < n := by rw [hn]; linarith
      exact_mod_cast this
    · intro q hq
      obtain ⟨z', hz', hq⟩ := List.mem_flatMap.1 hq
      obtain ⟨p, hp', rfl⟩ := List.mem_map.1 hq
      obtain ⟨g1, g2⟩ := hle z' hz'
      simp only
      rw [hn, min_eq_left (by linarith)]
      have := hx p hp'
      nlinarith
    · simp only
      rw [hn]
      nlinarith
  have w1 : winAtZs d [-10, 5] = .ok ⟨0, 0, (10 : ℕ), 2⟩ :=
    key _ (-10) (by simp) (by norm_num) (by simp; norm_num) 10 le_rfl (by norm_num) (by norm_num)
  have w2 : winAtZs d (demZs d ⟨0, 0, (10 : ℕ), 2⟩) = .ok ⟨0, 0, (5 : ℕ), 2⟩ := by
    have : demZs d ⟨0, 0, (10 : ℕ), 2⟩ = [0, 0] := rfl
    rw [this]
    exact key _ 0 (by simp) (by norm_num) (by simp) 5 (by norm_num) (by norm_num) (by norm_num)
  obtain ⟨o, ho, how, hot⟩ := stripDem_ok bulgeCam 10 (-10) (fun _ => 0) true (fun _ _ e => e.getD 0) 5 (by norm_num) (by norm_num) w1 w2
  refine ⟨bulgeCam, _, _, d, o, bulge_ray, rfl, fun _ => rfl, fun _ => rfl, rfl, fun _ _ _ => rfl, ho, 0, 7, by simp [hd, stripDem],
    by simp [hd, stripDem], 0, rfl, by norm_num [hd, stripDem], by norm_num [hd, stripDem], nadir_sees (by norm_num) ?_, ?_⟩
  · rw [bulge_toPix]
    simp only [hd, stripDem, Affine.apply, InIm, bulgeCam]
    norm_num
  · intro row' col' hc heq
    rw [how] at hc
    rw [hot] at heq
    have := congrArg Prod.fst heq
    simp only [hd, stripDem, Affine.apply] at this
    have hc' : (col' : ℝ) < 5 := by exact_mod_cast hc
    norm_num at this
    linarith

theorem demo_toCam (p : ℝ × ℝ) : demoCam.toCam p = ![(p.1 - 3 / 2) / 4, (p.2 - 1) / 4, 1] := by
  have hd : (kMat (4, 4) (3 / 2, 1)).det ≠ 0 := by rw [kMat_det]; norm_num
  have : demoCam.toCam p = (kMat (4, 4) (3 / 2, 1))⁻¹ *ᵥ homog p := rfl
  rw [this, kMat_ray _ _ hd]

theorem demo_win (val : ℕ → ℝ) (crs : Bool) (zm : ℝ → ℝ → Pix ℝ → ℝ) (zs : List ℝ) (z : ℝ) (hz : z ∈ zs)
    (hle : ∀ z' ∈ zs, z ≤ z' ∧ z' ≤ 5) (n : ℕ) (hn0 : 0 < n) (hn6 : n ≤ 6) (hn : 3 / 8 * (10 - z) ≤ n)
    (hn' : n - 1 < 3 / 8 * (10 - z)) : winAtZs (stripDem demoCam 6 (-6) val crs zm) zs = .ok ⟨0, 0, n, 2⟩ := by
  set d := stripDem demoCam 6 (-6) val crs zm with hd
  have hray := RayCam.of_pinhole isPinhole_demoCam
  have hbd : ∀ z, d.boundary z = _ := nadir_boundary hray (horizon_nadir hray rfl) (boundary_distort rfl) 6 (-6) val crs zm
  have hst := stack_ok hbd
  have hx : ∀ p ∈ boundary8 demoCam.imSize, demoCam.toCam p 0 ≤ 3 / 8 := by
    intro p hp
    rw [demo_toCam]
    simp [boundary8, show demoCam.imSize = (4, 3) from rfl] at hp ⊢
    rcases hp with rfl | rfl | rfl | rfl | rfl | rfl | rfl | rfl <;> norm_num
  have hz5 := (hle z hz).2
  have hp : ∀ p ∈ boundary8 demoCam.imSize, (demoCam.toCam p 0 * (10 - min z 10), -(demoCam.toCam p 1 * (10 - min z 10))) ∈
      zs.flatMap fun z => (boundary8 demoCam.imSize).map fun p =>
        (demoCam.toCam p 0 * (10 - min z 10), -(demoCam.toCam p 1 * (10 - min z 10))) :=
    fun p hp => List.mem_flatMap.2 ⟨z, hz, List.mem_map.2 ⟨p, hp, rfl⟩⟩
  have hmin : min z 10 = z := min_eq_left (by linarith)
  rw [hmin] at hp
  have hm0 : ((0 : ℝ), (0 : ℝ)) ∈ boundary8 demoCam.imSize := by simp [boundary8]
  have hm1 : ((3 : ℝ), (2 : ℝ)) ∈ boundary8 demoCam.imSize := by
    simp [boundary8, show demoCam.imSize = (4, 3) from rfl]; norm_num
  refine crop_right d zs _ (hst zs) (fun b => by cases crs <;> rfl) rfl rfl ⟨_, hp _ hm0, ?_⟩ ⟨_, hp _ hm0, ?_⟩ ⟨_, hp _ hm1, ?_⟩ n hn0 hn6 ?_
    ⟨_, hp _ hm1, ?_⟩
  · rw [demo_toCam]; simp; nlinarith
  · rw [demo_toCam]; simp; nlinarith
  · rw [demo_toCam]; simp; nlinarith
  · intro q hq
    obtain ⟨z', hz', hq⟩ := List.mem_flatMap.1 hq
    obtain ⟨p, hp', rfl⟩ := List.mem_map.1 hq
    obtain ⟨g1, g2⟩ := hle z' hz'
    simp only
    rw [min_eq_left (by linarith)]
    have := hx p hp'
    nlinarith
  · rw [demo_toCam]; simp; nlinarith

/-- C106 does not hold when the vertical datums of DEM and world differ by more than a constant, as the lowest pixel of the DEM need not be
the lowest in the world: a pixel that a pinhole camera sees is lost. -/
theorem C106_datum_fails : ∃ (d : DemIn ℝ) (o : DemOut ℝ), CameraDem demoCam d ∧ (∀ b, d.tb b = .ok b) ∧ initDem d = .ok o ∧
    ∃ row col : ℕ, row < d.h ∧ col < d.w ∧ ∃ x z, d.val row col = some x ∧
      d.zmap (d.t.apply (col + 1 / 2) (row + 1 / 2)).1 (d.t.apply (col + 1 / 2) (row + 1 / 2)).2 (some x) = z ∧ d.zlo ≤ z ∧ z ≤ d.zhi ∧
      SeesGround demoCam (extrinsicR (0, 0, 0)) ![0, 0, 10] d (col + 1 / 2) (row + 1 / 2) z ∧
      ∀ row' col' : ℕ, col' < o.w → o.t.apply (col' + 1 / 2) (row' + 1 / 2) ≠ d.t.apply (col + 1 / 2) (row + 1 / 2) := by
  set val : ℕ → ℝ := fun col => if col = 0 then 1 else if col = 1 then 2 else 3 / 2 with hval
  set zm : ℝ → ℝ → Pix ℝ → ℝ := fun x _ e => e.getD 0 + 2 - x with hzm
  set d := stripDem demoCam 6 (-6) val false zm with hd
  have w1 : winAtZs d [-6, 5] = .ok ⟨0, 0, (6 : ℕ), 2⟩ :=
    demo_win _ _ _ _ (-6) (by simp) (by simp; norm_num) 6 (by norm_num) le_rfl (by norm_num) (by norm_num)
  have w2 : winAtZs d (demZs d ⟨0, 0, (6 : ℕ), 2⟩) = .ok ⟨0, 0, (3 : ℕ), 2⟩ := by
    obtain ⟨lo, hi, l1, l2, l3, l4, hzs, hext⟩ := C54_extremes d ⟨0, 0, (6 : ℕ), 2⟩ w1
    have hread : ∀ r c : ℕ, readWin d ⟨0, 0, (6 : ℕ), 2⟩ r c = some (val c) := fun r c => by
      simp [readWin, hd, stripDem]
    have hlo : lo.2 = 0 := by
      obtain ⟨a, ha, hle⟩ := (hext 0 0 (by norm_num) (by norm_num) _ (hread 0 0)).1
      rw [hread] at ha
      injection ha with ha
      subst ha
      by_contra hne
      simp only [hval, hne, if_false, if_true] at hle
      split_ifs at hle <;> norm_num at hle
    have hhi : hi.2 = 1 := by
      obtain ⟨a, ha, hle⟩ := (hext 0 1 (by norm_num) (by norm_num) _ (hread 0 1)).2
      rw [hread] at ha
      injection ha with ha
      subst ha
      by_contra hne
      simp only [hval, hne, if_false, if_true, one_ne_zero] at hle
      split_ifs at hle <;> norm_num at hle
    have : demZs d ⟨0, 0, (6 : ℕ), 2⟩ = [3, 3] := by
      rw [hzs]
      simp only [List.map_cons, List.map_nil, hread, hlo, hhi]
      simp [hd, stripDem, hzm, hval, Affine.apply]
      norm_num
    rw [this]
    exact demo_win _ _ _ _ 3 (by simp) (by simp; norm_num) 3 (by norm_num) (by norm_num) (by norm_num) (by norm_num)
  obtain ⟨o, ho, how, hot⟩ := stripDem_ok demoCam 6 (-6) val false zm 3 (by norm_num) (by norm_num) w1 w2
  refine ⟨d, o, fun _ => rfl, fun _ => rfl, ho, 0, 3, by simp [hd, stripDem], by simp [hd, stripDem], 3 / 2, 0, ?_, ?_, ?_, ?_,
    nadir_sees (by norm_num) ?_, ?_⟩
  · simp [hd, stripDem, hval]
  · simp [hd, stripDem, hzm, Affine.apply]; norm_num
  · norm_num [hd, stripDem]
  · norm_num [hd, stripDem]
  · rw [show demoCam.toPix = dotK (kMat (4, 4) (3 / 2, 1)) from rfl, dotK_kMat]
    simp only [hd, stripDem, Affine.apply, InIm, show demoCam.imSize = (4, 3) from rfl]
    norm_num
    simp
    norm_num
  · intro row' col' hc heq
    rw [how] at hc
    rw [hot] at heq
    have := congrArg Prod.fst heq
    simp only [hd, stripDem, Affine.apply] at this
    have hc' : (col' : ℝ) < 3 := by exact_mod_cast hc
    norm_num at this
    linarith

/-- A flat DEM under a pinhole camera: all four columns that the camera sees are in the crop. -/
example : ∃ o, initDem (stripDem demoCam 6 (-6) (fun _ => 0) true (fun _ _ e => e.getD 0)) = .ok o ∧
    ∃ row' col' : ℕ, row' < o.h ∧ col' < o.w ∧ o.arr row' col' = some 0 ∧
      o.t.apply (col' + 0) (row' + 0) = (3, 1) := by
  set d := stripDem demoCam 6 (-6) (fun _ => 0) true (fun _ _ e => e.getD 0) with hd
  have w1 : winAtZs d [-6, 5] = .ok ⟨0, 0, (6 : ℕ), 2⟩ :=
    demo_win _ _ _ _ (-6) (by simp) (by simp; norm_num) 6 (by norm_num) le_rfl (by norm_num) (by norm_num)
  have w2 : winAtZs d (demZs d ⟨0, 0, (6 : ℕ), 2⟩) = .ok ⟨0, 0, (4 : ℕ), 2⟩ := by
    have : demZs d ⟨0, 0, (6 : ℕ), 2⟩ = [0, 0] := rfl
    rw [this]
    exact demo_win _ _ _ _ 0 (by simp) (by simp) 4 (by norm_num) (by norm_num) (by norm_num) (by norm_num)
  obtain ⟨o, ho, -, -⟩ := stripDem_ok demoCam 6 (-6) (fun _ => 0) true (fun _ _ e => e.getD 0) 4 (by norm_num) (by norm_num) w1 w2
  refine ⟨o, ho, ?_⟩
  obtain ⟨row', col', h1, h2, h3, h4⟩ := C106_pinhole_partial isPinhole_demoCam (by norm_num [show demoCam.imSize = (4, 3) from rfl])
    (by norm_num [show demoCam.imSize = (4, 3) from rfl]) d (fun _ => rfl) (.inl rfl) id monotone_id (fun _ _ _ => rfl) o ho 0 3 (by simp [hd, stripDem])
    (by simp [hd, stripDem]) 0 rfl (by norm_num [hd, stripDem]) (by norm_num [hd, stripDem]) (7 / 2) (1 / 2) (by norm_num) (by norm_num)
    (nadir_sees (by norm_num) (by
      rw [show demoCam.toPix = dotK (kMat (4, 4) (3 / 2, 1)) from rfl, dotK_kMat]
      simp only [hd, stripDem, Affine.apply, InIm, show demoCam.imSize = (4, 3) from rfl]
      norm_num
      simp
      norm_num))
  refine ⟨row', col', h1, h2, h3, (h4 0 0).trans ?_⟩
  simp [hd, stripDem, Affine.apply]

end

end Verif.Dem
