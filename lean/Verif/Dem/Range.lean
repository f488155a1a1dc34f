import Verif.Dem.Sees

/-!
# The range of heights that the crop of the DEM is made for (C106)
-/

set_option autoImplicit false

namespace Verif.Dem

open Matrix Verif.Frame Verif.Common Verif.Ortho
open Res (ok_bind error_bind)

noncomputable section

/-! ## Model -/

/-- orthority/ortho.py:144-151: the scale from metres to the z units of the world CRS.  `refZ` gives the height in the reference CRS
(EPSG:4979, in metres) of a world z, at the place of the centre pixel. -/
def zScale (refZ : ℝ → ℝ) : ℝ := 1 / (refZ 1 - refZ 0)

/-- orthority/ortho.py:78-83 `_egm_minmax` and `_z_max`, and line 174: the heights that the first window is for. -/
def zRange (scale : ℝ) : ℝ × ℝ := (-106.71 * scale, (8850 + 82.28) * scale)

/-! ## Theorems -/

/-- C106: the range of heights is -106.71 m to 8932.28 m above the zero of the world z, whatever the units of that. -/
theorem C106_range (refZ : ℝ → ℝ) (u s : ℝ) (hu : 0 < u) (href : ∀ z, refZ z = u * z + s) (z : ℝ) :
    ((zRange (zScale refZ)).1 ≤ z ↔ -106.71 ≤ u * z) ∧ (z ≤ (zRange (zScale refZ)).2 ↔ u * z ≤ 8932.28) := by
  have hs : zScale refZ = u⁻¹ := by simp [zScale, href]
  rw [hs]
  simp only [zRange, ← div_eq_mul_inv]
  rw [div_le_iff₀ hu, le_div_iff₀ hu, mul_comm z u]
  norm_num

/-- C106, the part that holds, in metres: every pixel of the DEM that a camera without distortion sees some of is in the cropped DEM, if its
ground is between -106.71 m and 8932.28 m.  `u` is the size of the world z unit in metres.  Missing: as for `C106_pinhole_partial`, and
lower ground (`C106_low_fails`, `C106_below_fails`). -/
theorem C106_metres_partial {c : FrameCam} {R : M3} {T : V3} (h : IsPinhole c R T) (hw : 0 < c.imSize.1) (hh : 0 < c.imSize.2)
    (d : DemIn ℝ) (hb : CameraDem c d) (hcrs : d.crsEqual = true ∨ ∀ b, d.tb b = .ok b) (g : ℝ → ℝ) (hg : Monotone g)
    (hz : ∀ x y e, d.zmap x y (some e) = g e) (refZ : ℝ → ℝ) (u s : ℝ) (hu : 0 < u) (href : ∀ z, refZ z = u * z + s)
    (hr : (d.zlo, d.zhi) = zRange (zScale refZ)) (o : DemOut ℝ) (ho : initDem d = .ok o) (row col : ℕ) (hrow : row < d.h) (hcol : col < d.w)
    (x : ℝ) (hx : d.val row col = some x) (hlo : -106.71 ≤ u * g x) (hhi : u * g x ≤ 8932.28) (a b : ℝ) (ha : col < a ∧ a < col + 1)
    (hv : row < b ∧ b < row + 1) (hs : SeesGround c R T d a b (g x)) :
    ∃ row' col' : ℕ, row' < o.h ∧ col' < o.w ∧ o.arr row' col' = some (d.f32 x) ∧
      ∀ a b : ℝ, o.t.apply (col' + a) (row' + b) = d.t.apply (col + a) (row + b) := by
  obtain ⟨h1, h2⟩ := C106_range refZ u s hu href (g x)
  rw [← hr] at h1 h2
  exact C106_pinhole_partial h hw hh d hb hcrs g hg hz o ho row col hrow hcol x hx (h1.2 hlo) (h2.2 hhi) a b ha hv hs

theorem lmin_const {x : ℝ} {l : List ℝ} (h : ∀ y ∈ l, y = x) : lmin x l = x := by
  unfold lmin
  induction l with
  | nil => rfl
  | cons a l ih =>
    simp only [List.foldl_cons, h a (by simp), min_self]
    exact ih fun y hy => h y (by simp [hy])

theorem lmax_const {x : ℝ} {l : List ℝ} (h : ∀ y ∈ l, y = x) : lmax x l = x := by
  unfold lmax
  induction l with
  | nil => rfl
  | cons a l ih =>
    simp only [List.foldl_cons, h a (by simp), max_self]
    exact ih fun y hy => h y (by simp [hy])

/-- C106 does not hold for cameras that are not above -106.71 m, as drones over the Dead Sea: the boundary of the image is clipped to the
height of the camera, which makes it a point, and Ortho() raises OrthorityError whatever ground the camera sees, and whatever the DEM is (in
the world CRS).  (With a `Window.intersection` that takes windows without area, the DEM would be cropped to the pixel of that point.) -/
theorem C106_below_fails {c : FrameCam} {R : M3} {T : V3} (hext : c.ext = some (R, T)) (p : ℝ × ℝ) (l : List (ℝ × ℝ))
    (hl : c.boundary none = .ok (p :: l)) (d : DemIn ℝ) (hb : CameraDem c d) (hcrs : d.crsEqual = true) (ht : NorthUp d.t)
    (refZ : ℝ → ℝ) (u s : ℝ) (hu : 0 < u) (href : ∀ z, refZ z = u * z + s) (hr : (d.zlo, d.zhi) = zRange (zScale refZ))
    (hT : u * T 2 ≤ -106.71) : initDem d = .error .orthorityError := by
  suffices hs : winAtZs d [d.zlo, d.zhi] = .error .orthorityError by
    unfold initDem; rw [hs]; rfl
  have hsc : zScale refZ = u⁻¹ := by simp [zScale, href]
  rw [hsc] at hr
  simp only [zRange, ← div_eq_mul_inv, Prod.mk.injEq] at hr
  have h1 : min d.zlo (T 2) = T 2 := min_eq_right (by rw [hr.1, le_div_iff₀ hu]; linarith)
  have h2 : min d.zhi (T 2) = T 2 := by
    refine min_eq_right ?_
    rw [hr.2, le_div_iff₀ hu]
    norm_num at hT ⊢
    linarith
  rcases horizon_cases hext with hf | hf
  · have hbz : ∀ z, min z (T 2) = T 2 → d.boundary z = .ok ((p :: l).map fun _ => (T 0, T 1)) := by
      intro z hz
      rw [hb, worldBoundary_eq hext hf none _ hl]
      simp only [not_true, if_false, hz]
      show Except.ok _ = _
      rw [List.map_map]
      congr 1
      refine List.map_congr_left fun q _ => ?_
      simp [FrameCam.pointAtZ]
    have hst : stackBoundary d.boundary [d.zlo, d.zhi] =
        .ok (((p :: l).map fun _ => (T 0, T 1)) ++ (((p :: l).map fun _ => (T 0, T 1)) ++ [])) := by
      simp only [stackBoundary, hbz _ h1, hbz _ h2, ok_bind]
    have hbo : boundsOf (((p :: l).map fun _ => (T 0, T 1)) ++ (((p :: l).map fun _ => (T 0, T 1)) ++ [])) =
        .ok ⟨T 0, T 1, T 0, T 1⟩ := by
      simp only [List.map_cons, List.cons_append, boundsOf]
      rw [lmin_const, lmin_const, lmax_const, lmax_const] <;>
        (intro y hy; simp at hy; tauto)
    unfold winAtZs demBounds
    rw [hst, ok_bind, hbo, ok_bind, if_pos hcrs, ok_bind, fromBounds_northUp ht le_rfl le_rfl, ok_bind]
    simp only [RWin.inter, sub_self, zero_div, add_zero]
    rw [if_pos (.inl ((min_le_right _ _).trans (le_max_right _ _)))]
  · unfold winAtZs demBounds
    simp only [stackBoundary]
    rw [hb, worldBoundary_horizon hext hf]
    rfl

/-- A level DEM of two rows and 200 columns, of unit pixels from (0, 1), at -430 m. -/
def lowDem (c : FrameCam) : DemIn ℝ where
  t := ⟨1, 0, 0, 0, -1, 1⟩
  w := 200
  h := 2
  val _ _ := some (-430)
  crsEqual := true
  tb := .ok
  boundary z := (c.worldBoundary (.scalar z) none true).map (List.map fun X => (X 0, X 1))
  zlo := -106.71
  zhi := 8850 + 82.28
  zmap _ _ e := e.getD 0
  f32 x := x

/-- C106 does not hold for ground lower than -106.71 m: a pinhole camera at 10 m looks straight down on level ground at -430 m, and ground
that it sees is lost. -/
theorem C106_low_fails : ∃ (d : DemIn ℝ) (o : DemOut ℝ), CameraDem demoCam d ∧ d.crsEqual = true ∧ (d.zlo, d.zhi) = zRange (zScale id) ∧
    (∀ x y e, d.zmap x y (some e) = e) ∧ initDem d = .ok o ∧
    ∃ row col : ℕ, row < d.h ∧ col < d.w ∧ ∃ x, d.val row col = some x ∧
      SeesGround demoCam (extrinsicR (0, 0, 0)) ![0, 0, 10] d (col + 1 / 2) (row + 1 / 2) x ∧
      ∀ row' col' : ℕ, col' < o.w → o.t.apply (col' + 1 / 2) (row' + 1 / 2) ≠ d.t.apply (col + 1 / 2) (row + 1 / 2) := by
  set d := lowDem demoCam with hd
  have hray := RayCam.of_pinhole isPinhole_demoCam
  have hbd : ∀ z, d.boundary z = _ := nadir_boundary hray (horizon_nadir hray rfl) (boundary_distort rfl) 6 (-6) (fun _ => 0) true
    (fun _ _ _ => 0)
  have hst := stack_ok hbd
  have hx : ∀ p ∈ boundary8 demoCam.imSize, demoCam.toCam p 0 ≤ 3 / 8 := by
    intro p hp
    rw [demo_toCam]
    simp [boundary8, show demoCam.imSize = (4, 3) from rfl] at hp ⊢
    rcases hp with rfl | rfl | rfl | rfl | rfl | rfl | rfl | rfl <;> norm_num
  have hm0 : ((0 : ℝ), (0 : ℝ)) ∈ boundary8 demoCam.imSize := by simp [boundary8]
  have hm1 : ((3 : ℝ), (2 : ℝ)) ∈ boundary8 demoCam.imSize := by
    simp [boundary8, show demoCam.imSize = (4, 3) from rfl]; norm_num
  have key : ∀ (zs : List ℝ) (z : ℝ), z ∈ zs → z ≤ 5 → (∀ z' ∈ zs, z ≤ z') → ∀ n : ℕ, 0 < n → n ≤ 200 → 3 / 8 * (10 - z) ≤ n →
      (n : ℝ) - 1 < 3 / 8 * (10 - z) → winAtZs d zs = .ok ⟨0, 0, n, 2⟩ := by
    intro zs z hz hz5 hle n hn0 hn hn1 hn2
    have hp : ∀ p ∈ boundary8 demoCam.imSize, (demoCam.toCam p 0 * (10 - min z 10), -(demoCam.toCam p 1 * (10 - min z 10))) ∈
        zs.flatMap fun z => (boundary8 demoCam.imSize).map fun p =>
          (demoCam.toCam p 0 * (10 - min z 10), -(demoCam.toCam p 1 * (10 - min z 10))) :=
      fun p hp => List.mem_flatMap.2 ⟨z, hz, List.mem_map.2 ⟨p, hp, rfl⟩⟩
    rw [min_eq_left (show z ≤ 10 by linarith)] at hp
    refine crop_right d zs _ (hst zs) (fun b => rfl) rfl rfl ⟨_, hp _ hm0, ?_⟩ ⟨_, hp _ hm0, ?_⟩ ⟨_, hp _ hm1, ?_⟩ n hn0 hn ?_
      ⟨_, hp _ hm1, ?_⟩
    · rw [demo_toCam]; simp; nlinarith
    · rw [demo_toCam]; simp; nlinarith
    · rw [demo_toCam]; simp; nlinarith
    · intro q hq
      obtain ⟨z', hz', hq⟩ := List.mem_flatMap.1 hq
      obtain ⟨p, hp', rfl⟩ := List.mem_map.1 hq
      have g1 : 10 - min z' 10 ≤ 10 - z := by
        have : z ≤ min z' 10 := le_min (hle z' hz') (by linarith)
        linarith
      have g2 : 0 ≤ 10 - min z' 10 := by linarith [min_le_right z' 10]
      have := hx p hp'
      simp only
      nlinarith
    · rw [demo_toCam]; simp; nlinarith
  have w1 : winAtZs d [d.zlo, d.zhi] = .ok ⟨0, 0, (44 : ℕ), 2⟩ := by
    refine key _ (-106.71) ?_ (by norm_num) ?_ 44 (by norm_num) (by norm_num) (by norm_num) (by norm_num)
    · simp [hd, lowDem]
    · intro z' hz'
      simp only [hd, lowDem, List.mem_cons, List.not_mem_nil, or_false] at hz'
      rcases hz' with rfl | rfl <;> norm_num
  have w2 : winAtZs d (demZs d ⟨0, 0, (44 : ℕ), 2⟩) = .ok ⟨0, 0, (165 : ℕ), 2⟩ := by
    have : demZs d ⟨0, 0, (44 : ℕ), 2⟩ = [-430, -430] := rfl
    rw [this]
    exact key _ (-430) (by simp) (by norm_num) (by simp) 165 (by norm_num) (by norm_num) (by norm_num) (by norm_num)
  refine ⟨d, cropDem d ⟨0, 0, (44 : ℕ), 2⟩ ⟨0, 0, 44, 2⟩, fun _ => rfl, rfl, ?_, fun _ _ _ => rfl, ?_, 0, 60, by simp [hd, lowDem],
    by simp [hd, lowDem], -430, rfl, nadir_sees (by norm_num) ?_, ?_⟩
  · simp [hd, lowDem, zRange, zScale]
  · unfold initDem
    rw [w1, ok_bind, w2, ok_bind]
    rfl
  · rw [show demoCam.toPix = dotK (kMat (4, 4) (3 / 2, 1)) from rfl, dotK_kMat]
    simp only [hd, lowDem, Affine.apply, InIm, show demoCam.imSize = (4, 3) from rfl]
    norm_num
    simp
    norm_num
  · intro row' col' hc heq
    simp only [cropDem, Affine.window_apply] at hc heq
    have := congrArg Prod.fst heq
    simp only [hd, lowDem, Affine.apply] at this
    have hc' : (col' : ℝ) < 44 := by exact_mod_cast hc
    norm_num at this
    linarith

/-! ## Examples -/

/-- The world z in feet. -/
example : (zRange (zScale fun z => 0.3048 * z + 20)).1 < -350 ∧ 29304 < (zRange (zScale fun z => 0.3048 * z + 20)).2 := by
  simp only [zRange, zScale]
  norm_num

/-- A drone at -200 m, 230 m above the shore of the Dead Sea. -/
def deadSeaCam : FrameCam := { demoCam with ext := some (extrinsicR (0, 0, 0), ![0, 0, -200]) }

/-- It sees the ground under it, and has no ortho. -/
example : SeenAt deadSeaCam (extrinsicR (0, 0, 0)) ![0, 0, -200] ![0, 0, -430] (3 / 2, 1) ∧ InIm deadSeaCam.imSize (3 / 2, 1) ∧
    initDem (lowDem deadSeaCam) = .error .orthorityError := by
  refine ⟨⟨?_, ?_⟩, ?_, ?_⟩
  · show dotK (kMat (4, 4) (3 / 2, 1)) _ = _
    rw [dotK_kMat]
    simp [FrameCam.unitDepth, FrameCam.camCoords, extrinsicR_zero, flipYZ, mulVec, dotProduct, Fin.sum_univ_three]
    norm_num
  · simp [FrameCam.camCoords, extrinsicR_zero, flipYZ, mulVec, dotProduct, Fin.sum_univ_three]
    norm_num
  · simp only [InIm, show deadSeaCam.imSize = (4, 3) from rfl]
    norm_num
  · refine C106_below_fails (R := extrinsicR (0, 0, 0)) (T := ![0, 0, -200]) rfl (0, 0) (boundary8 deadSeaCam.imSize).tail
      ?_ (lowDem deadSeaCam) (fun _ => rfl) rfl ⟨by norm_num [lowDem], rfl, rfl, by norm_num [lowDem]⟩ id 1 0 one_pos (by simp) ?_ ?_
    · rw [boundary_distort rfl]
      simp [boundary8]
    · simp [lowDem, zRange, zScale]
    · simp; norm_num

end

end Verif.Dem
