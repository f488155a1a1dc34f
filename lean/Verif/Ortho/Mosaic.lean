import Verif.Ortho.Process
import Verif.Dem.Props

/-!
# C110: orthos of overlapping images fit together

Each `Ortho` object crops the DEM to what its own camera sees (`_get_init_dem`, orthority/ortho.py:127-205), and the pixel grid of its ortho is that of
the cropped DEM (234-290, 292-343).  A mosaic needs no resampling when the pixels of two orthos are at the same places, and has no seam when both orthos
show the same ground there.

Nothing new is modelled: DEMs are those of `Verif.Dem`, `process` is that of `Verif.OrthoProcess`.  `rasterio.warp.reproject` with `dst_resolution` (277-289)
keeps the upper left corner and sets the size of pixels, for a DEM in the CRS of the ortho (`calculate_default_transform`: "Keep upper-left anchored");
this is a hypothesis of the theorems about DEMs that are reprojected.
-/

set_option autoImplicit false

namespace Verif.OrthoProcess

open Verif.Ortho Verif.Dem Verif.Common Verif.Tiles Verif.Files

variable {K Src : Type} [Field K] [LinearOrder K] [IsStrictOrderedRing K] [FloorRing K]

/-! ## Specification -/

/-- The `Ortho` object has the part of a DEM that its constructor crops (orthority/ortho.py:99-104). -/
structure Made (d : DemIn K) (o : Obj K Src) (m : Mem K) : Prop where
  dem : initDem d = .ok (o.dem.load m)
  crs : o.crsEqual = d.crsEqual

/-- The same band of the same DEM, for two cameras. -/
structure SameDem (d₁ d₂ : DemIn K) : Prop where
  t : d₁.t = d₂.t
  val : d₁.val = d₂.val
  f32 : d₁.f32 = d₂.f32

/-- `process` completes and writes the ortho image `f`. -/
structure Writes (o : Obj K Src) (a : Args K) (m : Mem K) (f : OrthoFile K) : Prop where
  info : InfoOk o
  opts : OptsOk a.opts
  run : ∃ fs fs' fault path, Names a.file path ∧ Process o a m fs fault fs' (.ok ()) ∧ fs' path = some f

/-- The pixels of two images lie on one grid: they differ by whole numbers of rows and columns. -/
def SharedGrid (s t : Affine K) : Prop := ∃ i j : ℤ, ∀ u v : K, t.apply u v = s.apply (u + j) (v + i)

/-- Reprojection without a change of CRS keeps the upper left corner and gives pixels of the resolution. -/
def Anchored (o : Obj K Src) : Prop := ∀ i res (d : DemOut K), (o.reproject i res d).t = ⟨res.1, 0, d.t.c, 0, -res.2, d.t.f⟩

/-! ## Lemmas -/

theorem Writes.covers {o : Obj K Src} {a : Args K} {m : Mem K} {f : OrthoFile K} (h : Writes o a m f) :
    ∃ res dtype nd d h w r0 c0, Choice o a res dtype nd ∧ DemAt o.dem o.crsEqual (o.call a.demInterp res) m d ∧
      Covers o a res d f h w r0 c0 := by
  obtain ⟨hi, ho, fs, fs', fault, path, hn, hp, hf⟩ := h
  obtain ⟨res, dtype, nd, f', d, h, w, r0, c0, e, p, wm, h1, h2, h3, h4, -⟩ := process_ok hi ho hn hp
  have : f' = f := by
    rw [h1] at hf
    simpa [FS.put] using hf
  subst this
  exact ⟨res, dtype, nd, d, h, w, r0, c0, h2, h3, h4⟩

omit [FloorRing K] in
theorem shift_fields {s t : Affine K} {x y : K} (h : ∀ u v : K, t.apply u v = s.apply (u + x) (v + y)) :
    t.a = s.a ∧ t.b = s.b ∧ t.d = s.d ∧ t.e = s.e ∧ t.c = s.a * x + s.b * y + s.c ∧ t.f = s.d * x + s.e * y + s.f := by
  have h0 := h 0 0
  have h1 := h 1 0
  have h2 := h 0 1
  simp only [Affine.apply, Prod.mk.injEq] at h0 h1 h2
  refine ⟨?_, ?_, ?_, ?_, ?_, ?_⟩ <;> linarith [h0.1, h0.2, h1.1, h1.2, h2.1, h2.2]

omit [LinearOrder K] [IsStrictOrderedRing K] [FloorRing K] in
theorem SharedGrid.trans {r s t : Affine K} (h : SharedGrid r s) (h' : SharedGrid s t) : SharedGrid r t := by
  obtain ⟨i, j, h⟩ := h
  obtain ⟨i', j', h'⟩ := h'
  refine ⟨i + i', j + j', fun u v => ?_⟩
  rw [h', h]
  push_cast
  congr 1 <;> ring

omit [LinearOrder K] [IsStrictOrderedRing K] [FloorRing K] in
theorem SharedGrid.symm {s t : Affine K} (h : SharedGrid s t) : SharedGrid t s := by
  obtain ⟨i, j, h⟩ := h
  refine ⟨-i, -j, fun u v => ?_⟩
  rw [h]
  push_cast
  congr 1 <;> ring

omit [IsStrictOrderedRing K] in
theorem Covers.shared {o : Obj K Src} {a : Args K} {res : K × K} {d : DemOut K} {f : OrthoFile K} {h w r0 c0 : ℕ}
    (hc : Covers o a res d f h w r0 c0) : SharedGrid d.t f.transform := ⟨r0, c0, fun u v => by rw [hc.place u v]; simp⟩

theorem Made.shared {d : DemIn K} {o : Obj K Src} {m : Mem K} (h : Made d o m) : SharedGrid d.t o.dem.t := by
  obtain ⟨r0, c0, -, -, -, -, -, hp⟩ := C54_crop d _ h.dem
  exact ⟨r0, c0, fun u v => by rw [show o.dem.t.apply u v = _ from hp u v]; simp⟩

omit [LinearOrder K] [IsStrictOrderedRing K] [FloorRing K] in
theorem Choice.given {o : Obj K Src} {a : Args K} {res res' : K × K} {dtype : String} {nd : Pix K} (h : Choice o a res dtype nd)
    (hr : a.resolution = some res') : res = res' := by
  rcases h.resolution with e | ⟨e, -⟩
  · rw [hr] at e; cases e; rfl
  · rw [hr] at e; cases e

/-- The DEM behind an ortho at the resolution of a DEM in the CRS of the ortho is that of the object. -/
theorem demAt_self {d : DemIn K} {o : Obj K Src} {m : Mem K} (hm : Made d o m) (hcrs : d.crsEqual = true) {c : Call K} {D : DemOut K}
    (hc : c.resolution = (|d.t.a|, |d.t.e|)) (h : DemAt o.dem o.crsEqual c m D) : D = o.dem.load m := by
  rcases h with ⟨-, -, -, h⟩ | ⟨h, -⟩
  · exact h
  · obtain ⟨i, j, hs⟩ := hm.shared
    obtain ⟨h1, -, -, h2, -⟩ := shift_fields hs
    exact absurd ⟨hm.crs.trans hcrs, by rw [hc, h1], by rw [hc, h2]⟩ h

/-- The grid of an ortho whose DEM keeps its corner. -/
theorem anchored_grid {o : Obj K Src} {a : Args K} {m : Mem K} {f : OrthoFile K} (h : Writes o a m f) (han : Anchored o) {res : K × K}
    (hr : a.resolution = some res) (hb : o.dem.t.b = 0) (hd : o.dem.t.d = 0) (ha : 0 < o.dem.t.a) (he : o.dem.t.e < 0) :
    SharedGrid ⟨res.1, 0, o.dem.t.c, 0, -res.2, o.dem.t.f⟩ f.transform := by
  obtain ⟨res', dtype, nd, d, hh, w, r0, c0, h1, h2, h3⟩ := h.covers
  obtain rfl := h1.given hr
  have ht : d.t = ⟨res'.1, 0, o.dem.t.c, 0, -res'.2, o.dem.t.f⟩ := by
    rcases h2 with ⟨-, e1, e2, rfl⟩ | ⟨-, rfl⟩
    · simp only [Obj.call] at e1 e2
      rw [abs_of_pos ha] at e1
      rw [abs_of_neg he] at e2
      ext <;> simp [DemRef.load, hb, hd, e1, e2]
    · exact han _ _ _
  rw [← ht]
  exact h3.shared

/-! ## Theorems -/

/-- C110: orthos of two images that are made with one DEM, in the CRS of the orthos and at the resolution of the DEM, lie on one pixel grid.  What is missing
is other resolutions (`C110_multiple_partial`, `C110_resolution_fails`) and other CRSs (`C110_crs_fails`). -/
theorem C110_grid_partial {d₁ d₂ : DemIn K} {o₁ o₂ : Obj K Src} {a₁ a₂ : Args K} {m₁ m₂ : Mem K} {f₁ f₂ : OrthoFile K} (hd : SameDem d₁ d₂)
    (h₁ : Made d₁ o₁ m₁) (h₂ : Made d₂ o₂ m₂) (hc₁ : d₁.crsEqual = true) (hc₂ : d₂.crsEqual = true)
    (hr₁ : a₁.resolution = some (|d₁.t.a|, |d₁.t.e|)) (hr₂ : a₂.resolution = some (|d₁.t.a|, |d₁.t.e|))
    (hw₁ : Writes o₁ a₁ m₁ f₁) (hw₂ : Writes o₂ a₂ m₂ f₂) : SharedGrid f₁.transform f₂.transform := by
  obtain ⟨res, dtype, nd, D, h, w, r0, c0, x1, x2, x3⟩ := hw₁.covers
  obtain ⟨res', dtype', nd', D', h', w', r0', c0', y1, y2, y3⟩ := hw₂.covers
  have e1 := demAt_self h₁ hc₁ (by rw [← x1.given hr₁]; rfl) x2
  have e2 := demAt_self h₂ hc₂ (by rw [← hd.t, ← y1.given hr₂]; rfl) y2
  have s1 := x3.shared
  have s2 := y3.shared
  rw [e1] at s1
  rw [e2] at s2
  have g1 := h₁.shared
  have g2 := h₂.shared
  rw [hd.t] at g1
  exact (s1.symm.trans g1.symm).trans (g2.trans s2)

/-- C110: where pixels of two such orthos are at the same place, both show the same point of the ground: the centre of a pixel of the DEM, at its elevation.  Each
band has what its camera sees there, or nodata; for cameras that do not dilate. -/
theorem C110_ground_partial {d₁ d₂ : DemIn K} {o₁ o₂ : Obj K Src} {a₁ a₂ : Args K} {m₁ m₂ : Mem K} {f₁ f₂ : OrthoFile K} (hd : SameDem d₁ d₂)
    (hdet : d₁.t.det ≠ 0) (h₁ : Made d₁ o₁ m₁) (h₂ : Made d₂ o₂ m₂) (hc₁ : d₁.crsEqual = true) (hc₂ : d₂.crsEqual = true)
    (hr₁ : a₁.resolution = some (|d₁.t.a|, |d₁.t.e|)) (hr₂ : a₂.resolution = some (|d₁.t.a|, |d₁.t.e|))
    (hw₁ : Writes o₁ a₁ m₁ f₁) (hw₂ : Writes o₂ a₂ m₂ f₂) (hn₁ : o₁.NanUnseen) (hn₂ : o₂.NanUnseen)
    (hm₁ : o₁.frame = false ∨ o₁.distort = true ∨ o₁.pinhole = true ∨ a₁.interp = "nearest")
    (hm₂ : o₂.frame = false ∨ o₂.distort = true ∨ o₂.pinhole = true ∨ a₂.interp = "nearest")
    {k₁ w₁ k₂ w₂ : ℕ} (hk₁ : Dict.get? f₁.profile "height" = some (.nat k₁)) (hk₂ : Dict.get? f₂.profile "height" = some (.nat k₂))
    (hl₁ : Dict.get? f₁.profile "width" = some (.nat w₁)) (hl₂ : Dict.get? f₂.profile "width" = some (.nat w₂))
    {r₁ c₁ r₂ c₂ : ℕ} (b₁ : r₁ < k₁) (b₂ : c₁ < w₁) (b₃ : r₂ < k₂) (b₄ : c₂ < w₂)
    (hplace : f₁.transform.apply c₁ r₁ = f₂.transform.apply c₂ r₂) :
    ∃ i j x y dt₁ nd₁ dt₂ nd₂, Choice o₁ a₁ (|d₁.t.a|, |d₁.t.e|) dt₁ nd₁ ∧ Choice o₂ a₂ (|d₁.t.a|, |d₁.t.e|) dt₂ nd₂ ∧
      (x, y) = d₁.t.apply ((j : ℕ) + 1 / 2) ((i : ℕ) + 1 / 2) ∧
      (x, y) = f₁.transform.apply (c₁ + 1 / 2) (r₁ + 1 / 2) ∧ (x, y) = f₂.transform.apply (c₂ + 1 / 2) (r₂ + 1 / 2) ∧
      (∀ b, 1 ≤ b → b ≤ o₁.count → f₁.im.data b r₁ c₁ = nd₁ ∨
        f₁.im.data b r₁ c₁ = (o₁.seen a₁.interp dt₁ b x y ((d₁.val i j).map d₁.f32)).getD nd₁) ∧
      (∀ b, 1 ≤ b → b ≤ o₂.count → f₂.im.data b r₂ c₂ = nd₂ ∨
        f₂.im.data b r₂ c₂ = (o₂.seen a₂.interp dt₂ b x y ((d₁.val i j).map d₁.f32)).getD nd₂) := by
  have key : ∀ {d : DemIn K} {o : Obj K Src} {a : Args K} {m : Mem K} {f : OrthoFile K}, Made d o m → d.crsEqual = true →
      a.resolution = some (|d.t.a|, |d.t.e|) → Writes o a m f → o.NanUnseen →
      (o.frame = false ∨ o.distort = true ∨ o.pinhole = true ∨ a.interp = "nearest") → ∀ {k w : ℕ},
      Dict.get? f.profile "height" = some (.nat k) → Dict.get? f.profile "width" = some (.nat w) → ∀ {r c : ℕ}, r < k → c < w →
      ∃ i j dt nd, Choice o a (|d.t.a|, |d.t.e|) dt nd ∧ (∀ u v : K, f.transform.apply (u + c) (v + r) = d.t.apply (u + (j : ℕ)) (v + (i : ℕ))) ∧
        (∀ b, 1 ≤ b → b ≤ o.count → f.im.data b r c = nd ∨
          f.im.data b r c = (o.seen a.interp dt b (d.t.apply (j + 1 / 2) (i + 1 / 2)).1 (d.t.apply (j + 1 / 2) (i + 1 / 2)).2
            ((d.val i j).map d.f32)).getD nd) := by
    intro d o a m f h hc hr hw hn hm k w hk hl r c hrk hcw
    obtain ⟨hi, ho, fs, fs', fault, path, hnm, hp, hf⟩ := hw
    obtain ⟨res, dtype, nd, f', D, hh, ww, r0, c0, e1, e2, e3, e4, e5, -, -, -, e9⟩ := C82_pixels o a m fs fs' fault hi hn ho path hnm hm hp
    have : f' = f := by
      rw [e1] at hf
      simpa [FS.put] using hf
    subst this
    obtain rfl := e2.given hr
    obtain rfl := demAt_self h hc (by rfl) e3
    have : hh = k := by
      have := e5.height.symm.trans hk
      cases this
      rfl
    subst this
    have : ww = w := by
      have := e5.width.symm.trans hl
      cases this
      rfl
    subst this
    obtain ⟨R, C, t1, t2, -, -, t3, t4⟩ := C54_crop d _ h.dem
    have hin := e4.inside
    have hplace' : ∀ u v : K, f'.transform.apply (u + c) (v + r) = d.t.apply (u + ((C + (c0 + c) : ℕ) : K)) (v + ((R + (r0 + r) : ℕ) : K)) := by
      intro u v
      rw [e4.place, t4]
      push_cast
      congr 1 <;> ring
    refine ⟨R + (r0 + r), C + (c0 + c), dtype, nd, e2, hplace', fun b hb1 hb2 => ?_⟩
    rw [e9 b r c hb1 hb2 hrk hcw]
    unfold Obj.ground
    split
    · right
      have hpos : (o.dem.load m).t.apply (((c0 + c : ℕ) : K) + 1 / 2) (((r0 + r : ℕ) : K) + 1 / 2) =
          d.t.apply (((C + (c0 + c) : ℕ) : K) + 1 / 2) (((R + (r0 + r) : ℕ) : K) + 1 / 2) := by
        rw [t4]
        push_cast
        congr 1 <;> ring
      rw [hpos, t3 (r0 + r) (by omega) (c0 + c) (by omega)]
    · exact .inl rfl
  obtain ⟨i, j, dt₁, nd₁, q1, q2, q3⟩ := key h₁ hc₁ hr₁ hw₁ hn₁ hm₁ hk₁ hl₁ b₁ b₂
  obtain ⟨i', j', dt₂, nd₂, p1, p2, p3⟩ := key h₂ hc₂ (by rw [← hd.t]; exact hr₂) hw₂ hn₂ hm₂ hk₂ hl₂ b₃ b₄
  rw [← hd.t] at p1 p2 p3
  rw [← hd.val, ← hd.f32] at p3
  have heq : ((j : K), (i : K)) = ((j' : K), (i' : K)) := by
    have g1 := q2 0 0
    have g2 := p2 0 0
    simp only [zero_add] at g1 g2
    rw [hplace, g2] at g1
    have := congrArg (fun p : K × K => d₁.t.inv.apply p.1 p.2) g1
    rw [Affine.inv_apply_apply _ hdet, Affine.inv_apply_apply _ hdet] at this
    exact this.symm
  simp only [Prod.mk.injEq, Nat.cast_inj] at heq
  obtain ⟨rfl, rfl⟩ := heq
  refine ⟨i, j, (d₁.t.apply (j + 1 / 2) (i + 1 / 2)).1, (d₁.t.apply (j + 1 / 2) (i + 1 / 2)).2, dt₁, nd₁, dt₂, nd₂, q1, p1, rfl, ?_, ?_, q3, p3⟩
  · have := q2 (1 / 2) (1 / 2)
    rw [add_comm (c₁ : K), add_comm (r₁ : K), this, add_comm (j : K), add_comm (i : K)]
  · have := p2 (1 / 2) (1 / 2)
    rw [add_comm (c₂ : K), add_comm (r₂ : K), this, add_comm (j : K), add_comm (i : K)]

/-- C110, for other resolutions of a DEM in the CRS of the orthos: two orthos lie on one pixel grid if and only if the corners of the cropped DEMs of their objects
differ by a whole number of ortho pixels. -/
theorem C110_exact {o₁ o₂ : Obj K Src} {a₁ a₂ : Args K} {m₁ m₂ : Mem K} {f₁ f₂ : OrthoFile K} {res : K × K} (hr₁ : a₁.resolution = some res)
    (hr₂ : a₂.resolution = some res) (hw₁ : Writes o₁ a₁ m₁ f₁) (hw₂ : Writes o₂ a₂ m₂ f₂) (ha₁ : Anchored o₁) (ha₂ : Anchored o₂)
    (hn₁ : o₁.dem.t.b = 0 ∧ o₁.dem.t.d = 0 ∧ 0 < o₁.dem.t.a ∧ o₁.dem.t.e < 0)
    (hn₂ : o₂.dem.t.b = 0 ∧ o₂.dem.t.d = 0 ∧ 0 < o₂.dem.t.a ∧ o₂.dem.t.e < 0) :
    SharedGrid f₁.transform f₂.transform ↔
      (∃ j : ℤ, o₂.dem.t.c - o₁.dem.t.c = j * res.1) ∧ ∃ i : ℤ, o₂.dem.t.f - o₁.dem.t.f = i * res.2 := by
  have g1 := anchored_grid hw₁ ha₁ hr₁ hn₁.1 hn₁.2.1 hn₁.2.2.1 hn₁.2.2.2
  have g2 := anchored_grid hw₂ ha₂ hr₂ hn₂.1 hn₂.2.1 hn₂.2.2.1 hn₂.2.2.2
  constructor
  · intro h
    obtain ⟨i, j, hs⟩ := (g1.trans h).trans g2.symm
    obtain ⟨-, -, -, -, h5, h6⟩ := shift_fields hs
    simp only at h5 h6
    exact ⟨⟨j, by rw [h5]; ring⟩, ⟨-i, by rw [h6]; push_cast; ring⟩⟩
  · rintro ⟨⟨j, hj⟩, i, hi⟩
    refine (g1.symm.trans ?_).trans g2
    refine ⟨-i, j, fun u v => ?_⟩
    simp only [Affine.apply, Prod.mk.injEq]
    push_cast
    constructor
    · linear_combination hj
    · linear_combination hi

/-- C110: two orthos of one DEM, in the CRS of the orthos, lie on one pixel grid when the size of the pixels of the DEM is a multiple of that of the ortho pixels. -/
theorem C110_multiple_partial {d₁ d₂ : DemIn K} {o₁ o₂ : Obj K Src} {a₁ a₂ : Args K} {m₁ m₂ : Mem K} {f₁ f₂ : OrthoFile K} (hd : SameDem d₁ d₂)
    (h₁ : Made d₁ o₁ m₁) (h₂ : Made d₂ o₂ m₂) {res : K × K} (hr₁ : a₁.resolution = some res) (hr₂ : a₂.resolution = some res)
    (hw₁ : Writes o₁ a₁ m₁ f₁) (hw₂ : Writes o₂ a₂ m₂ f₂) (ha₁ : Anchored o₁) (ha₂ : Anchored o₂)
    (hup : d₁.t.b = 0 ∧ d₁.t.d = 0 ∧ 0 < d₁.t.a ∧ d₁.t.e < 0) (n k : ℕ) (hn : d₁.t.a = n * res.1) (hk : -d₁.t.e = k * res.2) :
    SharedGrid f₁.transform f₂.transform := by
  obtain ⟨i, j, s1⟩ := h₁.shared
  obtain ⟨i', j', s2⟩ := h₂.shared
  rw [← hd.t] at s2
  obtain ⟨x1, x2, x3, x4, x5, x6⟩ := shift_fields s1
  obtain ⟨y1, y2, y3, y4, y5, y6⟩ := shift_fields s2
  obtain ⟨u1, u2, u3, u4⟩ := hup
  refine (C110_exact hr₁ hr₂ hw₁ hw₂ ha₁ ha₂ ⟨by rw [x2, u1], by rw [x3, u2], by rw [x1]; exact u3, by rw [x4]; exact u4⟩
    ⟨by rw [y2, u1], by rw [y3, u2], by rw [y1]; exact u3, by rw [y4]; exact u4⟩).2 ⟨⟨(j' - j) * n, ?_⟩, ⟨(i - i') * k, ?_⟩⟩
  · rw [y5, x5, u1]
    push_cast
    linear_combination (j' - j : K) * hn
  · rw [y6, x6, u2]
    push_cast
    linear_combination (i - i' : K) * hk

/-- C110 does not hold with the default resolution, the GSD of each image: orthos of images with different GSDs do not lie on one grid. -/
theorem C110_default_fails {o₁ o₂ : Obj K Src} {a₁ a₂ : Args K} {m₁ m₂ : Mem K} {f₁ f₂ : OrthoFile K} (hr₁ : a₁.resolution = none)
    (hr₂ : a₂.resolution = none) (hw₁ : Writes o₁ a₁ m₁ f₁) (hw₂ : Writes o₂ a₂ m₂ f₂)
    (hp₁ : ∀ i res d, 0 < res.1 → 0 < res.2 → |(o₁.reproject i res d).t.a| = res.1 ∧ |(o₁.reproject i res d).t.e| = res.2)
    (hp₂ : ∀ i res d, 0 < res.1 → 0 < res.2 → |(o₂.reproject i res d).t.a| = res.1 ∧ |(o₂.reproject i res d).t.e| = res.2) (hg : o₁.gsd ≠ o₂.gsd)
    (hg₁ : 0 < o₁.gsd) (hg₂ : 0 < o₂.gsd) :
    ¬ SharedGrid f₁.transform f₂.transform := by
  have key : ∀ {o : Obj K Src} {a : Args K} {m : Mem K} {f : OrthoFile K}, a.resolution = none → Writes o a m f →
      (∀ i res d, 0 < res.1 → 0 < res.2 → |(o.reproject i res d).t.a| = res.1 ∧ |(o.reproject i res d).t.e| = res.2) → 0 < o.gsd →
      |f.transform.a| = o.gsd := by
    intro o a m f hr hw hp hg
    obtain ⟨hi, ho, fs, fs', fault, path, hn, hpr, hf⟩ := hw
    obtain ⟨f', res, e1, e2, e3⟩ := C82_resolution o a m fs fs' fault hi ho path hn hp hpr
    have : f' = f := by
      rw [e1] at hf
      simpa [FS.put] using hf
    subst this
    rcases e2 with e2 | ⟨-, rfl⟩
    · rw [hr] at e2; cases e2
    · exact (e3 hg hg).1
  rintro ⟨i, j, h⟩
  have := (shift_fields h).1
  exact hg (by rw [← key hr₁ hw₁ hp₁ hg₁, ← key hr₂ hw₂ hp₂ hg₂, this])

/-! ## Cases of the theorems -/

/-- A DEM of 8 by 8 pixels of 2 m, for a camera that sees 8 m by 8 m from `x` on. -/
def mosaicDem (x : ℚ) : DemIn ℚ where
  t := ⟨2, 0, 100, 0, -2, 200⟩
  w := 8
  h := 8
  val r c := some (10 * r + c)
  crsEqual := true
  tb := .ok
  boundary _ := .ok [(x, 192), (x + 8, 200)]
  zlo := 0
  zhi := 100
  zmap _ _ _ := 0
  f32 := id

/-- The cropped DEM of the camera, `k` columns from the left of the DEM. -/
def mosaicMem (k : ℕ) : Mem ℚ := ⟨fun _ r c => some (10 * r + (k + c : ℕ)), 1⟩

/-- The object of the camera: all of the DEM that it has is in its footprint, and reprojection keeps the corner. -/
def mosaicObj (k : ℕ) (g : ℚ := 2) : Obj ℚ (List ℚ) :=
  { demoObj with
    gsd := g
    dem := ⟨0, 4, 4, ⟨2, 0, 100 + 2 * k, 0, -2, 200⟩⟩
    orthoSize := (8, 8)
    reproject := fun _ res d => ⟨fun _ _ => some 0, 2, 2, ⟨res.1, 0, d.t.c, 0, -res.2, d.t.f⟩⟩
    poly := fun _ _ => []
    fillPoly := fun _ _ _ _ _ => true }

def mosaicArgs (res : ℚ × ℚ) : Args ℚ := { demoArgs with resolution := some res }

theorem mosaic_made : Made (mosaicDem 100) (mosaicObj 0) (mosaicMem 0) ∧ Made (mosaicDem 102) (mosaicObj 1) (mosaicMem 1) := by
  have w0 : winAtZs (mosaicDem 100) [0, 100] = .ok ⟨0, 0, 4, 4⟩ := by decide +kernel
  have v0 : winAtZs (mosaicDem 100) (demZs (mosaicDem 100) ⟨0, 0, 4, 4⟩) = .ok ⟨0, 0, 4, 4⟩ := by decide +kernel
  have i0 : interI ⟨0, 0, 4, 4⟩ ⟨0, 0, 4, 4⟩ = .ok ⟨0, 0, 4, 4⟩ := by decide +kernel
  have w1 : winAtZs (mosaicDem 102) [0, 100] = .ok ⟨1, 0, 4, 4⟩ := by decide +kernel
  have v1 : winAtZs (mosaicDem 102) (demZs (mosaicDem 102) ⟨1, 0, 4, 4⟩) = .ok ⟨1, 0, 4, 4⟩ := by decide +kernel
  have i1 : interI ⟨1, 0, 4, 4⟩ ⟨1, 0, 4, 4⟩ = .ok ⟨1, 0, 4, 4⟩ := by decide +kernel
  have init : ∀ (d : DemIn ℚ) (a : IWin), winAtZs d [d.zlo, d.zhi] = .ok a → winAtZs d (demZs d a) = .ok a → interI a a = .ok a →
      initDem d = .ok (cropDem d a a) := by
    intro d a h1 h2 h3
    unfold initDem
    rw [h1]
    show (do let win ← winAtZs d (demZs d a); let win ← interI win a; .ok (cropDem d a win)) = _
    rw [h2]
    show (do let win ← interI a a; .ok (cropDem d a win)) = _
    rw [h3]
    rfl
  refine ⟨⟨?_, rfl⟩, ⟨?_, rfl⟩⟩
  · rw [init _ _ w0 v0 i0]
    congr 1
    show DemOut.mk _ _ _ _ = DemOut.mk _ _ _ _
    congr 1
    · funext r c
      simp [readWin, mosaicDem, mosaicMem, mosaicObj]
    · decide +kernel
  · rw [init _ _ w1 v1 i1]
    congr 1
    show DemOut.mk _ _ _ _ = DemOut.mk _ _ _ _
    congr 1
    · funext r c
      simp [readWin, mosaicDem, mosaicMem, mosaicObj, add_comm]
    · decide +kernel

theorem mosaic_same (x y : ℚ) : SameDem (mosaicDem x) (mosaicDem y) := ⟨rfl, rfl, rfl⟩

theorem mosaic_anchored (k : ℕ) : Anchored (mosaicObj k) := fun _ _ _ => rfl

theorem mosaic_nan (k : ℕ) : (mosaicObj k).NanUnseen := by
  intro _ _ b x y
  simp [Obj.seen, mosaicObj, demoObj]

theorem mosaic_writes' (k : ℕ) (g : ℚ) (a : Args ℚ) (res : ℚ × ℚ) (hr : a.resolution = some res ∨ (a.resolution = none ∧ res = (g, g)))
    (ha : a = { demoArgs with resolution := a.resolution }) (h1 : res.1 ≤ 8) (h2 : res.2 ≤ 8) : ∃ f, Writes (mosaicObj k g) a (mosaicMem k) f := by
  obtain ⟨a, rfl⟩ : ∃ r, a = { demoArgs with resolution := r } := ⟨_, ha⟩
  have hi : InfoOk (mosaicObj k g) := ⟨demo_infoOk.height, demo_infoOk.width, demo_infoOk.block⟩
  have ho : OptsOk ({ demoArgs with resolution := a } : Args ℚ).opts := ⟨by simp [Dict.Ok, demoArgs], fun _ _ => rfl⟩
  have hready : Ready (mosaicObj k g) { demoArgs with resolution := a } (mosaicMem k) res "uint8" := by
    refine ⟨rfl, by simp [demoArgs], Or.inr ⟨h1, h2⟩, ?_, ⟨by simp [demoArgs], by simp, Or.inr (Or.inl rfl)⟩⟩
    intro d hd
    rcases hd with ⟨-, -, -, rfl⟩ | ⟨-, rfl⟩
    · exact ⟨0, by simp [mosaicObj, DemRef.load], 0, by simp [mosaicObj, DemRef.load], rfl, by simp [maskArgs, DemRef.load, mosaicMem]⟩
    · exact ⟨0, by simp [mosaicObj, DemRef.load, Obj.call], 0, by simp [mosaicObj, DemRef.load, Obj.call], rfl, by simp [maskArgs, Obj.call, mosaicObj]⟩
  obtain ⟨⟨fs', h⟩, -⟩ := C82_completes (mosaicObj k g) { demoArgs with resolution := a } (mosaicMem k) (fun _ => none) hi ho "ortho.tif" res "uint8"
    hr (Or.inr ⟨Or.inl rfl, rfl⟩) hready ⟨Or.inl rfl, Or.inr rfl⟩ (by simp [demoArgs]) ⟨by simp [mosaicObj, demoObj], by simp [mosaicObj, demoObj]⟩
    (fun p => demo_small p)
  obtain ⟨res, dtype, nd, f, d, hh, w, r0, c0, e, p, wm, e1, -⟩ := process_ok hi ho (Or.inl rfl) h
  exact ⟨f, hi, ho, _, fs', none, "ortho.tif", Or.inl rfl, h, by rw [e1]; simp [FS.put]⟩

theorem mosaic_writes (k : ℕ) (res : ℚ × ℚ) (h1 : res.1 ≤ 8) (h2 : res.2 ≤ 8) : ∃ f, Writes (mosaicObj k) (mosaicArgs res) (mosaicMem k) f :=
  mosaic_writes' k 2 _ res (Or.inl rfl) rfl h1 h2

/-- C110 does not hold for other resolutions: orthos with 3 m pixels of two cameras on a DEM with 2 m pixels, in the CRS of the orthos, do not lie on one grid. -/
theorem C110_resolution_fails : ∃ (d₁ d₂ : DemIn ℚ) (o₁ o₂ : Obj ℚ (List ℚ)) (a : Args ℚ) (m₁ m₂ : Mem ℚ) (f₁ f₂ : OrthoFile ℚ),
    SameDem d₁ d₂ ∧ Made d₁ o₁ m₁ ∧ Made d₂ o₂ m₂ ∧ d₁.crsEqual = true ∧ d₂.crsEqual = true ∧ d₁.t = ⟨2, 0, 100, 0, -2, 200⟩ ∧
    a.resolution = some (3, 3) ∧ Anchored o₁ ∧ Anchored o₂ ∧ Writes o₁ a m₁ f₁ ∧ Writes o₂ a m₂ f₂ ∧ ¬ SharedGrid f₁.transform f₂.transform := by
  obtain ⟨f₁, h₁⟩ := mosaic_writes 0 (3, 3) (by norm_num) (by norm_num)
  obtain ⟨f₂, h₂⟩ := mosaic_writes 1 (3, 3) (by norm_num) (by norm_num)
  refine ⟨mosaicDem 100, mosaicDem 102, _, _, mosaicArgs (3, 3), _, _, f₁, f₂, mosaic_same _ _, mosaic_made.1, mosaic_made.2, rfl, rfl, rfl, rfl,
    mosaic_anchored 0, mosaic_anchored 1, h₁, h₂, fun h => ?_⟩
  obtain ⟨⟨j, hj⟩, -⟩ := (C110_exact rfl rfl h₁ h₂ (mosaic_anchored 0) (mosaic_anchored 1)
    ⟨rfl, rfl, by norm_num [mosaicObj], by norm_num [mosaicObj]⟩ ⟨rfl, rfl, by norm_num [mosaicObj], by norm_num [mosaicObj]⟩).1 h
  have : (2 : ℤ) = j * 3 := by
    have e : (2 : ℚ) = (j : ℚ) * 3 := by
      have : ((mosaicObj 1).dem.t.c - (mosaicObj 0).dem.t.c) = 2 := by simp [mosaicObj]
      rw [← this, hj]
    exact_mod_cast e
  omega

/-- The same cameras at the resolution of the DEM, and at half of it. -/
example : (∃ f₁ f₂, Writes (mosaicObj 0) (mosaicArgs (2, 2)) (mosaicMem 0) f₁ ∧ Writes (mosaicObj 1) (mosaicArgs (2, 2)) (mosaicMem 1) f₂ ∧
      SharedGrid f₁.transform f₂.transform) ∧
    ∃ f₁ f₂, Writes (mosaicObj 0) (mosaicArgs (1, 1)) (mosaicMem 0) f₁ ∧ Writes (mosaicObj 1) (mosaicArgs (1, 1)) (mosaicMem 1) f₂ ∧
      SharedGrid f₁.transform f₂.transform := by
  obtain ⟨f₁, h₁⟩ := mosaic_writes 0 (2, 2) (by norm_num) (by norm_num)
  obtain ⟨f₂, h₂⟩ := mosaic_writes 1 (2, 2) (by norm_num) (by norm_num)
  obtain ⟨f₃, h₃⟩ := mosaic_writes 0 (1, 1) (by norm_num) (by norm_num)
  obtain ⟨f₄, h₄⟩ := mosaic_writes 1 (1, 1) (by norm_num) (by norm_num)
  have hr : (mosaicArgs (2, 2)).resolution = some (|(mosaicDem 100).t.a|, |(mosaicDem 100).t.e|) := by decide +kernel
  exact ⟨⟨f₁, f₂, h₁, h₂, C110_grid_partial (mosaic_same 100 102) mosaic_made.1 mosaic_made.2 rfl rfl hr hr h₁ h₂⟩,
    f₃, f₄, h₃, h₄, C110_multiple_partial (mosaic_same 100 102) mosaic_made.1 mosaic_made.2 rfl rfl h₃ h₄ (mosaic_anchored 0) (mosaic_anchored 1)
      ⟨rfl, rfl, by norm_num [mosaicDem], by norm_num [mosaicDem]⟩ 2 2 (by norm_num [mosaicDem]) (by norm_num [mosaicDem])⟩

/-- The orthos at the resolution of the DEM have 4 by 4 pixels, from the corner of the cropped DEM on. -/
theorem mosaic_size {k : ℕ} {f : OrthoFile ℚ} (h : Writes (mosaicObj k) (mosaicArgs (2, 2)) (mosaicMem k) f) :
    Dict.get? f.profile "height" = some (.nat 4) ∧ Dict.get? f.profile "width" = some (.nat 4) ∧
      ∀ u v : ℚ, f.transform.apply u v = (2 * u + (100 + 2 * k), -2 * v + 200) := by
  obtain ⟨hi, ho, fs, fs', fault, path, hn, hp, hf⟩ := h
  obtain ⟨res, dtype, nd, f', d, hh, w, r0, c0, e1, e2, e3, e4, e5, -⟩ := C82_pixels _ _ _ _ _ _ hi (mosaic_nan k) ho path hn (Or.inr (Or.inl rfl)) hp
  have : f' = f := by
    rw [e1] at hf
    simpa [FS.put] using hf
  subst this
  obtain rfl := e2.given rfl
  have hd : d = (mosaicObj k).dem.load (mosaicMem k) := by
    rcases e3 with ⟨-, -, -, e⟩ | ⟨e, -⟩
    · exact e
    · exact absurd ⟨rfl, by simp [Obj.call, mosaicObj], by simp [Obj.call, mosaicObj]⟩ e
  subst hd
  have hv : ∀ i j, (mosaicObj k).InView (mosaicArgs (2, 2)) (2, 2) ((mosaicObj k).dem.load (mosaicMem k)) i j := by
    intro i j
    exact ⟨rfl, by simp [maskArgs, DemRef.load, mosaicMem]⟩
  have h1 := e4.all 0 (by simp [mosaicObj, DemRef.load]) 0 (by simp [mosaicObj, DemRef.load]) (hv 0 0)
  have h2 := e4.all 3 (by simp [mosaicObj, DemRef.load]) 3 (by simp [mosaicObj, DemRef.load]) (hv 3 3)
  have h3 : r0 + hh ≤ 4 ∧ c0 + w ≤ 4 := e4.inside
  obtain rfl : hh = 4 := by omega
  obtain rfl : w = 4 := by omega
  obtain rfl : r0 = 0 := by omega
  obtain rfl : c0 = 0 := by omega
  refine ⟨e5.height, e5.width, fun u v => ?_⟩
  rw [e4.place]
  simp [Affine.apply, DemRef.load, mosaicObj]

/-- Pixel (0, 1) of the first ortho and pixel (0, 0) of the second show the ground at (103, 199), at the elevation of 1 m that the DEM has there. -/
example {f₁ f₂ : OrthoFile ℚ} (h₁ : Writes (mosaicObj 0) (mosaicArgs (2, 2)) (mosaicMem 0) f₁)
    (h₂ : Writes (mosaicObj 1) (mosaicArgs (2, 2)) (mosaicMem 1) f₂) :
    ∃ nd₁ nd₂ dt₁ dt₂, (f₁.im.data 1 0 1 = nd₁ ∨ f₁.im.data 1 0 1 = ((mosaicObj 0).seen "cubic" dt₁ 1 103 199 (some 1)).getD nd₁) ∧
      (f₂.im.data 1 0 0 = nd₂ ∨ f₂.im.data 1 0 0 = ((mosaicObj 1).seen "cubic" dt₂ 1 103 199 (some 1)).getD nd₂) := by
  obtain ⟨s1, s2, s3⟩ := mosaic_size h₁
  obtain ⟨t1, t2, t3⟩ := mosaic_size h₂
  have hr : (mosaicArgs (2, 2)).resolution = some (|(mosaicDem 100).t.a|, |(mosaicDem 100).t.e|) := by decide +kernel
  obtain ⟨i, j, x, y, dt₁, nd₁, dt₂, nd₂, -, -, e1, e2, -, e4, e5⟩ := C110_ground_partial (mosaic_same 100 102)
    (by simp [mosaicDem, Affine.det]) mosaic_made.1 mosaic_made.2 rfl rfl hr hr h₁ h₂ (mosaic_nan 0) (mosaic_nan 1) (Or.inr (Or.inl rfl)) (Or.inr (Or.inl rfl))
    s1 t1 s2 t2 (r₁ := 0) (c₁ := 1) (r₂ := 0) (c₂ := 0) (by decide) (by decide) (by decide) (by decide) (by rw [s3, t3]; norm_num)
  have e3 := e1.symm.trans e2
  rw [s3] at e2 e3
  simp only [mosaicDem, Affine.apply, Prod.mk.injEq] at e2 e3
  obtain rfl : x = 103 := by rw [e2.1]; norm_num
  obtain rfl : y = 199 := by rw [e2.2]; norm_num
  obtain rfl : j = 1 := by
    have : (j : ℚ) = 1 := by push_cast at e3; linarith [e3.1]
    exact_mod_cast this
  obtain rfl : i = 0 := by
    have : (i : ℚ) = 0 := by push_cast at e3; linarith [e3.2]
    exact_mod_cast this
  have hz : ((mosaicDem 100).val 0 1).map (mosaicDem 100).f32 = some 1 := by decide +kernel
  rw [hz] at e4 e5
  exact ⟨nd₁, nd₂, dt₁, dt₂, e4 1 (by decide) (by decide), e5 1 (by decide) (by decide)⟩

/-- The default resolution of two such cameras at different heights, with GSDs of 2 m and 1 m. -/
example : ∃ f₁ f₂ : OrthoFile ℚ, Writes (mosaicObj 0 2) demoArgs (mosaicMem 0) f₁ ∧ Writes (mosaicObj 0 1) demoArgs (mosaicMem 0) f₂ ∧
    ¬ SharedGrid f₁.transform f₂.transform := by
  have hp : ∀ (g : ℚ) (i : String) (res : ℚ × ℚ) (d : DemOut ℚ), 0 < res.1 → 0 < res.2 →
      |((mosaicObj 0 g).reproject i res d).t.a| = res.1 ∧ |((mosaicObj 0 g).reproject i res d).t.e| = res.2 := by
    intro g i res d h1 h2
    exact ⟨abs_of_pos h1, by simp [mosaicObj, abs_of_pos h2]⟩
  obtain ⟨f₁, h₁⟩ := mosaic_writes' 0 2 demoArgs (2, 2) (Or.inr ⟨rfl, rfl⟩) rfl (by norm_num) (by norm_num)
  obtain ⟨f₂, h₂⟩ := mosaic_writes' 0 1 demoArgs (1, 1) (Or.inr ⟨rfl, rfl⟩) rfl (by norm_num) (by norm_num)
  exact ⟨f₁, f₂, h₁, h₂, C110_default_fails rfl rfl h₁ h₂ (hp 2) (hp 1) (by norm_num [mosaicObj]) (by norm_num [mosaicObj]) (by norm_num [mosaicObj])⟩

end Verif.OrthoProcess
