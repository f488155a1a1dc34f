import Verif.Ortho.Process

/-!
# C119: elevations in the vertical CRS of the world

`_reproject_dem` converts the elevations of the DEM to the vertical units and datum of the world / ortho CRS with
`rasterio.warp.reproject`.
-/

set_option autoImplicit false

namespace Verif.OrthoProcess.Vertical

open Verif.Ortho Verif.Common Verif.Files Verif.Dem

variable {K Src : Type} [Field K] [LinearOrder K] [IsStrictOrderedRing K] [FloorRing K]

/-! ## Model -/

/-- What is used of PROJ and GDAL: `toWorld` and `toDem` are `rasterio.warp.transform` of a point (x, y, z) from the CRS of the DEM to that of the world, and back;
`sample` is the elevation that resampling gives at a location in the CRS of the DEM, by interpolation type and resolution; `grid` is the size and
transform of the reprojected DEM; `pipe` is GDAL's warp option `MULT_FACTOR_VERTICAL_SHIFT_PIPELINE`, which the call of `reproject` does not set
(orthority/ortho.py:275-289), so that it is 1. -/
structure Warp (K : Type) where
  toWorld : K × K × K → K × K × K
  toDem : K × K × K → K × K × K
  sample : String → K × K → DemOut K → K → K → Pix K
  grid : K × K → DemOut K → ℕ × ℕ × Affine K
  pipe : K

/-- `z_scale`, orthority/ortho.py:257-265: how much the elevation in the world differs for elevations 0 and 1 at the centre of the DEM. -/
def zScale (W : Warp K) (d : DemOut K) : K :=
  let p := d.t.apply (((d.w : K) - 1) / 2) (((d.h : K) - 1) / 2)
  (W.toWorld (p.1, p.2, 1)).2.2 - (W.toWorld (p.1, p.2, 0)).2.2

/-- `reproject`, orthority/ortho.py:275-290, with `apply_vertical_shift=True` and `mult_factor_vertical_shift=z_scale`.  As in GDAL's warper, the value of a pixel is
the resampled elevation times the factor, less the elevation in the CRS of the DEM of the point with elevation 0 in the world.  Simplified:
the result is not rounded to float32, and `toDem` does not fail. -/
def reprojectZ (W : Warp K) (interp : String) (res : K × K) (d : DemOut K) : DemOut K :=
  let g := W.grid res d
  ⟨fun i j =>
    let q := g.2.2.apply ((j : K) + 1 / 2) ((i : K) + 1 / 2)
    let p := W.toDem (q.1, q.2, 0)
    (W.sample interp res d p.1 p.2.1).map fun v => v * zScale W d - p.2.2 * W.pipe, g.1, g.2.1, g.2.2⟩

/-! ## Specification -/

/-- The vertical CRSs of DEM and world: an elevation `z` of the DEM is `k * z + s q` in the world, at location `q` of the world, where `k` is the ratio of
their units and `s` the difference of their datums (as that of two geoids), in units of the world.  The conversion can be undone. -/
structure Units (W : Warp K) (k : K) (s : K × K → K) : Prop where
  pos : 0 < k
  up : ∀ x y z, W.toWorld (x, y, z) = ((W.toWorld (x, y, 0)).1, (W.toWorld (x, y, 0)).2.1,
    k * z + s ((W.toWorld (x, y, 0)).1, (W.toWorld (x, y, 0)).2.1))
  inv : ∀ q, W.toWorld (W.toDem q) = q

/-- The DEM has the elevation `v` at location (`x`, `y`) of its CRS: at the centre of a pixel, or by resampling. -/
def HasElev (W : Warp K) (interp : String) (res : K × K) (d : DemOut K) (x y v : K) : Prop :=
  W.sample interp res d x y = some v ∨
    ∃ i j, d.arr i j = some v ∧ d.t.apply ((j : K) + 1 / 2) ((i : K) + 1 / 2) = (x, y)

/-! ## Theorems -/

omit [LinearOrder K] [IsStrictOrderedRing K] [FloorRing K] in
theorem zScale_eq [LinearOrder K] [IsStrictOrderedRing K] {W : Warp K} {k : K} {s : K × K → K} (h : Units W k s) (d : DemOut K) : zScale W d = k := by
  unfold zScale
  simp only
  rw [h.up _ _ 1, h.up _ _ 0]
  simp only
  ring

omit [LinearOrder K] [IsStrictOrderedRing K] [FloorRing K] in
theorem place_eq [LinearOrder K] [IsStrictOrderedRing K] {W : Warp K} {k : K} {s : K × K → K} (h : Units W k s) (q : K × K) :
    (W.toDem (q.1, q.2, 0)).2.2 = -(s q / k) ∧
    ∀ v, W.toWorld ((W.toDem (q.1, q.2, 0)).1, (W.toDem (q.1, q.2, 0)).2.1, v) = (q.1, q.2, k * v + s q) := by
  have hi := h.inv (q.1, q.2, 0)
  generalize W.toDem (q.1, q.2, 0) = p at hi
  obtain ⟨x, y, z⟩ := p
  rw [h.up] at hi
  simp only [Prod.mk.injEq] at hi
  obtain ⟨h1, h2, h3⟩ := hi
  rw [h1, h2] at h3
  have hk := h.pos.ne'
  refine ⟨?_, fun v => ?_⟩
  · simp only
    field_simp
    linear_combination h3
  · simp only
    rw [h.up, h1, h2]

/-- C119, exactly, for a DEM that is reprojected: there is a location (`x`, `y`) in the CRS of the DEM for each pixel, with location `q` in the world, such that ground
with elevation `v` there has the elevation `k * v + s q` in the world; and the elevation of the pixel is `k * v + pipe * s q / k`. -/
theorem C119_exact (W : Warp K) (k : K) (s : K × K → K) (h : Units W k s) (interp : String) (res : K × K) (d : DemOut K) (i j : ℕ) (q : K × K)
    (hq : q = (reprojectZ W interp res d).t.apply ((j : K) + 1 / 2) ((i : K) + 1 / 2)) :
    ∃ x y, (∀ v, W.toWorld (x, y, v) = (q.1, q.2, k * v + s q)) ∧
      (reprojectZ W interp res d).arr i j = (W.sample interp res d x y).map (fun v => k * v + W.pipe * s q / k) := by
  subst hq
  obtain ⟨h1, h2⟩ := place_eq h ((reprojectZ W interp res d).t.apply ((j : K) + 1 / 2) ((i : K) + 1 / 2))
  refine ⟨_, _, h2, ?_⟩
  show (W.sample interp res d _ _).map _ = _
  congr 1
  funext v
  rw [zScale_eq h]
  simp only [reprojectZ] at h1 ⊢
  rw [h1]
  ring

/-- C119, the part that holds: when DEM and world have the same vertical units, or the same vertical datum, the camera sees each pixel of an ortho at the
elevation in the world that the DEM has there.  Missing: other units with another datum (`C119_fails`). -/
theorem C119_partial (o : Obj K Src) (W : Warp K) (hw : o.reproject = reprojectZ W) (hp : W.pipe = 1) (k : K) (s : K × K → K) (hu : Units W k s)
    (hks : k = 1 ∨ ∀ q, s q = 0) (hsame : o.crsEqual = true → ∀ p, W.toWorld p = p) (a : Args K) (m : Mem K)
    (fs fs' : FS (OrthoFile K)) (fault : Option (Fault (OrthoFile K)))
    (hi : InfoOk o) (hnan : o.NanUnseen) (ho : OptsOk a.opts) (path : String) (hn : Names a.file path)
    (hmode : o.frame = false ∨ o.distort = true ∨ o.pinhole = true ∨ a.interp = "nearest") (h : Process o a m fs fault fs' (.ok ())) :
    ∃ res dtype nd f d h w r0 c0, fs' = fs.put path (some f) ∧ Choice o a res dtype nd ∧
      DemAt o.dem o.crsEqual (o.call a.demInterp res) m d ∧ Covers o a res d f h w r0 c0 ∧
      (∀ b r c, 1 ≤ b → b ≤ o.count → r < h → c < w → f.im.data b r c = o.ground a res dtype nd d b (r0 + r) (c0 + c)) ∧
      ∀ r c e, r < h → c < w → d.arr (r0 + r) (c0 + c) = some e → ∃ x y v, HasElev W a.demInterp res (o.dem.load m) x y v ∧
        W.toWorld (x, y, v) =
          ((f.transform.apply ((c : K) + 1 / 2) ((r : K) + 1 / 2)).1, (f.transform.apply ((c : K) + 1 / 2) ((r : K) + 1 / 2)).2, e) := by
  obtain ⟨res, dtype, nd, f, d, hh, w, r0, c0, h1, h2, h3, h4, -, -, -, -, h9⟩ := C82_pixels o a m fs fs' fault hi hnan ho path hn hmode h
  refine ⟨res, dtype, nd, f, d, hh, w, r0, c0, h1, h2, h3, h4, h9, ?_⟩
  intro r c e hr hc he
  have ht : f.transform.apply ((c : K) + 1 / 2) ((r : K) + 1 / 2) = d.t.apply (((c0 + c : ℕ) : K) + 1 / 2) (((r0 + r : ℕ) : K) + 1 / 2) := by
    rw [h4.place]
    push_cast
    ring_nf
  rw [ht]
  rcases h3 with ⟨hc1, -, -, rfl⟩ | ⟨-, rfl⟩
  · exact ⟨_, _, e, .inr ⟨_, _, he, rfl⟩, hsame hc1 _⟩
  · simp only [Obj.call, hw] at he ⊢
    obtain ⟨x, y, g2, g1⟩ := C119_exact W k s hu a.demInterp res (o.dem.load m) (r0 + r) (c0 + c) _ rfl
    rw [he] at g1
    obtain ⟨v, hv, hve⟩ := Option.map_eq_some_iff.1 g1.symm
    refine ⟨x, y, v, .inl hv, ?_⟩
    rw [g2, ← hve, hp]
    rcases hks with rfl | h0
    · simp
    · simp [h0]

/-- C119 fails when DEM and world have other vertical units and also another vertical datum (as a DEM in feet above a geoid, and a world in metres above the
ellipsoid): where the datums differ, the camera sees the pixels of the ortho at an elevation that is wrong by `s - s / k`. -/
theorem C119_fails (o : Obj K Src) (W : Warp K) (hw : o.reproject = reprojectZ W) (hp : W.pipe = 1) (k : K) (s : K × K → K) (hu : Units W k s)
    (hk : k ≠ 1) (hc : o.crsEqual = false) (a : Args K) (m : Mem K) (fs fs' : FS (OrthoFile K)) (fault : Option (Fault (OrthoFile K)))
    (hi : InfoOk o) (hnan : o.NanUnseen) (ho : OptsOk a.opts) (path : String) (hn : Names a.file path)
    (hmode : o.frame = false ∨ o.distort = true ∨ o.pinhole = true ∨ a.interp = "nearest") (h : Process o a m fs fault fs' (.ok ())) :
    ∃ res dtype nd f d h w r0 c0, fs' = fs.put path (some f) ∧ Choice o a res dtype nd ∧
      DemAt o.dem o.crsEqual (o.call a.demInterp res) m d ∧ Covers o a res d f h w r0 c0 ∧
      (∀ b r c, 1 ≤ b → b ≤ o.count → r < h → c < w → f.im.data b r c = o.ground a res dtype nd d b (r0 + r) (c0 + c)) ∧
      ∀ r c e q, r < h → c < w → d.arr (r0 + r) (c0 + c) = some e → q = f.transform.apply ((c : K) + 1 / 2) ((r : K) + 1 / 2) → s q ≠ 0 →
        ∃ x y v, W.sample a.demInterp res (o.dem.load m) x y = some v ∧ W.toWorld (x, y, v) = (q.1, q.2, e + (s q - s q / k)) ∧
          s q - s q / k ≠ 0 := by
  obtain ⟨res, dtype, nd, f, d, hh, w, r0, c0, h1, h2, h3, h4, -, -, -, -, h9⟩ := C82_pixels o a m fs fs' fault hi hnan ho path hn hmode h
  refine ⟨res, dtype, nd, f, d, hh, w, r0, c0, h1, h2, h3, h4, h9, ?_⟩
  intro r c e q hr hcc he hq hs
  have ht : f.transform.apply ((c : K) + 1 / 2) ((r : K) + 1 / 2) = d.t.apply (((c0 + c : ℕ) : K) + 1 / 2) (((r0 + r : ℕ) : K) + 1 / 2) := by
    rw [h4.place]
    push_cast
    ring_nf
  rw [ht] at hq
  rcases h3 with ⟨hc1, -⟩ | ⟨-, rfl⟩
  · rw [hc] at hc1; cases hc1
  · simp only [Obj.call, hw] at he hq
    obtain ⟨x, y, g2, g1⟩ := C119_exact W k s hu a.demInterp res (o.dem.load m) (r0 + r) (c0 + c) q hq
    rw [he] at g1
    obtain ⟨v, hv, hve⟩ := Option.map_eq_some_iff.1 g1.symm
    refine ⟨x, y, v, hv, ?_, ?_⟩
    · rw [g2, ← hve, hp]
      congr 2
      ring
    · intro h0
      have hk0 := hu.pos.ne'
      field_simp at h0
      rw [mul_zero] at h0
      rcases mul_eq_zero.1 h0 with h0 | h0
      · exact hs h0
      · exact hk (by linear_combination h0)

/-! ## Examples -/

/-- Elevations of the DEM in units of `k` m, with a datum `s` m above that of the world; the locations of pixels are the same. -/
def warp (k s : ℚ) : Warp ℚ where
  toWorld p := (p.1, p.2.1, k * p.2.2 + s)
  toDem p := (p.1, p.2.1, (p.2.2 - s) / k)
  sample _ _ d x y := d.arr ⌊(200 - y) / 2⌋.toNat ⌊(x - 100) / 2⌋.toNat
  grid _ d := (d.h, d.w, d.t)
  pipe := 1

theorem warp_units (k s : ℚ) (hk : 0 < k) : Units (warp k s) k fun _ => s where
  pos := hk
  up := fun x y z => by simp [warp]
  inv := fun q => by
    have := hk.ne'
    simp only [warp]
    refine Prod.ext rfl (Prod.ext rfl ?_)
    simp only
    field_simp
    ring

/-- `demoObj` with its DEM in another CRS. -/
def warpObj (k s : ℚ) : Obj ℚ (List ℚ) := { demoObj with crsEqual := false, reproject := reprojectZ (warp k s) }

theorem warp_infoOk (k s : ℚ) : InfoOk (warpObj k s) := ⟨demo_infoOk.height, demo_infoOk.width, demo_infoOk.block⟩

theorem warp_nan (k s : ℚ) : (warpObj k s).NanUnseen := by
  intro _ _ b x y
  simp [Obj.seen, warpObj, demoObj]

/-- The elevations of the reprojected DEM of the example. -/
theorem warp_arr (k s : ℚ) (hk : 0 < k) (i j : ℕ) : (reprojectZ (warp k s) "cubic" (2, 2) (demoObj.dem.load demoMem)).arr i j =
    (demoMask.arr i j).map fun v => k * v + s / k := by
  obtain ⟨h1, -⟩ := place_eq (warp_units k s hk) (((demoObj.dem.load demoMem).t).apply ((j : ℚ) + 1 / 2) ((i : ℚ) + 1 / 2))
  have e1 : ⌊(200 - (-2 * ((i : ℚ) + 1 / 2) + 200)) / 2⌋ = i := by
    rw [Int.floor_eq_iff]; push_cast; constructor <;> linarith
  have e2 : ⌊(2 * ((j : ℚ) + 1 / 2) + 100 - 100) / 2⌋ = j := by
    rw [Int.floor_eq_iff]; push_cast; constructor <;> linarith
  unfold reprojectZ
  rw [zScale_eq (warp_units k s hk)]
  simp only [warp, demoObj, demoMem, DemRef.load, Affine.apply, zero_mul, add_zero, zero_add, e1, e2, Int.toNat_natCast]
  congr 1
  funext v
  ring

theorem warp_inView (k s : ℚ) (hk : 0 < k) (i j : ℕ) :
    (warpObj k s).InView demoArgs (2, 2) (reprojectZ (warp k s) "cubic" (2, 2) (demoObj.dem.load demoMem)) i j ↔
    (1 ≤ i ∧ 1 ≤ j ∧ j ≤ 2) ∧ ¬ (i = 1 ∧ j = 1) := by
  rw [← demo_inView i j]
  unfold Obj.InView Kept
  simp only [maskArgs]
  rw [warp_arr k s hk]
  have : polyJi (maskArgs ((warpObj k s).call demoArgs.demInterp (2, 2)) (reprojectZ (warp k s) "cubic" (2, 2) (demoObj.dem.load demoMem))) =
    polyJi (maskArgs (demoObj.call demoArgs.demInterp (2, 2)) ⟨demoMask.arr, 3, 4, ⟨2, 0, 100, 0, -2, 200⟩⟩) := rfl
  simp only [maskArgs] at this
  rw [this]
  simp only [warpObj, Obj.call, ne_eq, Option.map_eq_none_iff]
  rfl

theorem warp_completes (k s : ℚ) (hk : 0 < k) : ∃ fs', Process (warpObj k s) demoArgs demoMem (fun _ => none) none fs' (.ok ()) := by
  have hr := demo_ready
  refine (C82_completes (warpObj k s) demoArgs demoMem (fun _ => none) (warp_infoOk k s) ⟨by simp [Dict.Ok, demoArgs], by decide⟩
    "ortho.tif" (2, 2) "uint8" (Or.inr ⟨rfl, rfl⟩) (Or.inr ⟨Or.inl rfl, rfl⟩) ⟨rfl, hr.demInterp, .inr ?_, ?_, hr.profile⟩
    ⟨Or.inl rfl, Or.inr rfl⟩ (by decide) (show 2 < 32767 ∧ 2 < 32767 by decide) demo_small).1
  · show (2 : ℚ) ≤ 8 ∧ (2 : ℚ) ≤ 6
    norm_num
  · intro d hd
    rcases hd with ⟨h, -⟩ | ⟨-, rfl⟩
    · cases h
    · exact ⟨2, show 2 < 3 by decide, 2, show 2 < 4 by decide, (warp_inView k s hk 2 2).2 (by decide)⟩

/-- The ortho of the example has 2 by 2 pixels, with pixel (0, 0) at (1, 1) of the DEM. -/
theorem warp_place {k s : ℚ} (hk : 0 < k) {res : ℚ × ℚ} {dtype : String} {nd : Pix ℚ} {f : OrthoFile ℚ} {d : DemOut ℚ} {h w r0 c0 : ℕ}
    (h2 : Choice (warpObj k s) demoArgs res dtype nd)
    (h3 : DemAt (warpObj k s).dem (warpObj k s).crsEqual ((warpObj k s).call demoArgs.demInterp res) demoMem d)
    (h4 : Covers (warpObj k s) demoArgs res d f h w r0 c0) :
    1 < h ∧ 1 < w ∧ d.arr (r0 + 1) (c0 + 1) = some (k * 22 + s / k) := by
  obtain rfl : res = (2, 2) := by
    rcases h2.resolution with e | e
    · cases e
    · exact e.2
  rcases h3 with ⟨h, -⟩ | ⟨-, rfl⟩
  · cases h
  have q1 := h4.all 1 (show 1 < 3 by decide) 2 (show 2 < 4 by decide) ((warp_inView k s hk 1 2).2 (by decide))
  have q2 := h4.all 2 (show 2 < 3 by decide) 1 (show 1 < 4 by decide) ((warp_inView k s hk 2 1).2 (by decide))
  have q3 := h4.all 2 (show 2 < 3 by decide) 2 (show 2 < 4 by decide) ((warp_inView k s hk 2 2).2 (by decide))
  obtain ⟨⟨j1, -, t1⟩, -, ⟨i1, -, t2⟩, -⟩ := h4.tight
  replace t1 := (warp_inView k s hk _ _).1 t1
  replace t2 := (warp_inView k s hk _ _).1 t2
  obtain rfl : r0 = 1 := by omega
  obtain rfl : c0 = 1 := by omega
  refine ⟨by omega, by omega, (warp_arr k s hk 2 2).trans ?_⟩
  simp [demoMask]
  norm_num

/-- A DEM in metres with a datum 30 m above that of the world: elevation 22 m of the DEM is 52 m. -/
example : ∃ fs' f d r c, Process (warpObj 1 30) demoArgs demoMem (fun _ => none) none fs' (.ok ()) ∧ fs' "ortho.tif" = some f ∧
    DemAt (warpObj 1 30).dem false ((warpObj 1 30).call "cubic" (2, 2)) demoMem d ∧ d.arr r c = some 52 := by
  obtain ⟨fs', h⟩ := warp_completes 1 30 (by norm_num)
  obtain ⟨res, dtype, nd, f, d, hh, w, r0, c0, h1, h2, h3, h4, -, h6⟩ := C119_partial (warpObj 1 30) (warp 1 30) rfl rfl 1 (fun _ => 30)
    (warp_units 1 30 (by norm_num)) (.inl rfl) (fun h => by cases h) demoArgs demoMem _ fs' none (warp_infoOk _ _) (warp_nan _ _)
    ⟨by simp [Dict.Ok, demoArgs], by decide⟩ "ortho.tif" (Or.inl rfl) (Or.inr (Or.inl rfl)) h
  obtain ⟨k1, k2, k3⟩ := warp_place (by norm_num) h2 h3 h4
  obtain ⟨x, y, v, k4, k5⟩ := h6 1 1 _ k1 k2 k3
  obtain rfl : res = (2, 2) := by
    rcases h2.resolution with e | e
    · cases e
    · exact e.2
  refine ⟨fs', f, d, r0 + 1, c0 + 1, h, by rw [h1]; exact if_pos rfl, h3, ?_⟩
  rw [k3]
  norm_num

/-- A DEM in feet, with a datum 30 m above that of the world: elevation 22 feet of the DEM is 36.7056 m, but the camera sees the ground 68.4 m higher. -/
example : ∃ fs' f d r c e, Process (warpObj (3048 / 10000) 30) demoArgs demoMem (fun _ => none) none fs' (.ok ()) ∧ fs' "ortho.tif" = some f ∧
    DemAt (warpObj (3048 / 10000) 30).dem false ((warpObj (3048 / 10000) 30).call "cubic" (2, 2)) demoMem d ∧ d.arr r c = some e ∧
    ∃ x y v, HasElev (warp (3048 / 10000) 30) "cubic" (2, 2) (demoObj.dem.load demoMem) x y v ∧
      ((warp (3048 / 10000) 30).toWorld (x, y, v)).2.2 < e - 68 := by
  obtain ⟨fs', h⟩ := warp_completes (3048 / 10000) 30 (by norm_num)
  obtain ⟨res, dtype, nd, f, d, hh, w, r0, c0, h1, h2, h3, h4, -, h6⟩ := C119_fails (warpObj (3048 / 10000) 30) (warp (3048 / 10000) 30) rfl rfl
    (3048 / 10000) (fun _ => 30) (warp_units (3048 / 10000) 30 (by norm_num)) (by norm_num) rfl demoArgs demoMem _ fs' none (warp_infoOk _ _) (warp_nan _ _)
    ⟨by simp [Dict.Ok, demoArgs], by decide⟩ "ortho.tif" (Or.inl rfl) (Or.inr (Or.inl rfl)) h
  obtain ⟨k1, k2, k3⟩ := warp_place (by norm_num) h2 h3 h4
  obtain ⟨x, y, v, k4, k5, -⟩ := h6 1 1 _ _ k1 k2 k3 rfl (by norm_num)
  obtain rfl : res = (2, 2) := by
    rcases h2.resolution with e | e
    · cases e
    · exact e.2
  refine ⟨fs', f, d, r0 + 1, c0 + 1, _, h, by rw [h1]; exact if_pos rfl, h3, k3, x, y, v, .inl k4, ?_⟩
  rw [k5]
  norm_num

end Verif.OrthoProcess.Vertical
