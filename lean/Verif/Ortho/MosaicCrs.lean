import Verif.Ortho.Mosaic

/-!
# C110 for DEMs in another CRS than the orthos

`_reproject_dem` (orthority/ortho.py:234-290) then reprojects the cropped DEM of each object onto a grid from the upper left corner of the bounds that the crop has in
the CRS of the ortho (`calculate_default_transform`).  That corner is a parameter here.
-/

set_option autoImplicit false

namespace Verif.OrthoProcess

open Verif.Ortho Verif.Dem Verif.Common Verif.Tiles Verif.Files

variable {K Src : Type} [Field K] [LinearOrder K] [IsStrictOrderedRing K] [FloorRing K]

/-! ## Specification -/

/-- Reprojection gives pixels of the resolution, from the upper left corner `corner d` of the bounds of the DEM `d` in the CRS of the ortho. -/
def Cornered (o : Obj K Src) (corner : DemOut K → K × K) : Prop :=
  ∀ i res (d : DemOut K), (o.reproject i res d).t = ⟨res.1, 0, (corner d).1, 0, -res.2, (corner d).2⟩

/-! ## Theorems -/

/-- C110 for DEMs in another CRS: two orthos lie on one pixel grid if and only if the corners of the cropped DEMs of their objects, in the CRS of the orthos, differ by a
whole number of ortho pixels. -/
theorem C110_crs_exact {o₁ o₂ : Obj K Src} {a₁ a₂ : Args K} {m₁ m₂ : Mem K} {f₁ f₂ : OrthoFile K} {res : K × K} (hr₁ : a₁.resolution = some res)
    (hr₂ : a₂.resolution = some res) (hw₁ : Writes o₁ a₁ m₁ f₁) (hw₂ : Writes o₂ a₂ m₂ f₂) (hc₁ : o₁.crsEqual = false) (hc₂ : o₂.crsEqual = false)
    {corner : DemOut K → K × K} (ha₁ : Cornered o₁ corner) (ha₂ : Cornered o₂ corner) :
    SharedGrid f₁.transform f₂.transform ↔
      (∃ j : ℤ, (corner (o₂.dem.load m₂)).1 - (corner (o₁.dem.load m₁)).1 = j * res.1) ∧
        ∃ i : ℤ, (corner (o₂.dem.load m₂)).2 - (corner (o₁.dem.load m₁)).2 = i * res.2 := by
  have key : ∀ {o : Obj K Src} {a : Args K} {m : Mem K} {f : OrthoFile K}, a.resolution = some res → Writes o a m f → o.crsEqual = false → Cornered o corner →
      SharedGrid ⟨res.1, 0, (corner (o.dem.load m)).1, 0, -res.2, (corner (o.dem.load m)).2⟩ f.transform := by
    intro o a m f hr hw hc ha
    obtain ⟨res', dtype, nd, d, hh, w, r0, c0, h1, h2, h3⟩ := hw.covers
    obtain rfl := h1.given hr
    rcases h2 with ⟨e, -⟩ | ⟨-, rfl⟩
    · rw [hc] at e; cases e
    · have := h3.shared
      rw [show ((o.call a.demInterp res').reproject (o.dem.load m)).t = _ from ha _ _ _] at this
      exact this
  have g1 := key hr₁ hw₁ hc₁ ha₁
  have g2 := key hr₂ hw₂ hc₂ ha₂
  constructor
  · intro h
    obtain ⟨i, j, hs⟩ := (g1.trans h).trans g2.symm
    obtain ⟨-, -, -, -, h5, h6⟩ := shift_fields hs
    simp only at h5 h6
    exact ⟨⟨j, by rw [h5]; ring⟩, ⟨-i, by rw [h6]; push_cast; ring⟩⟩
  · rintro ⟨⟨j, hj⟩, i, hi⟩
    refine (g1.symm.trans ?_).trans g2
    refine ⟨-i, j, fun u v => ?_⟩
    simp only [Affine.apply, Prod.mk.injEq]
    push_cast
    constructor
    · linear_combination hj
    · linear_combination hi

/-! ## A DEM in a CRS that is turned -/

/-- The CRS of the orthos is turned a little about (100, 200) from that of the DEM: a point (x, y) of the DEM is at `toOrtho (x, y)`. -/
def toOrtho (p : ℚ × ℚ) : ℚ × ℚ := (p.1 + (p.2 - 200) / 10, p.2 - (p.1 - 100) / 10)

/-- Back to the CRS of the DEM. -/
def toDem (p : ℚ × ℚ) : ℚ × ℚ :=
  (100 + ((p.1 - 100) - (p.2 - 200) / 10) * (100 / 101), 200 + ((p.2 - 200) + (p.1 - 100) / 10) * (100 / 101))

/-- They are inverse. -/
theorem toDem_toOrtho (p : ℚ × ℚ) : toDem (toOrtho p) = p := by
  apply Prod.ext <;> simp only [toDem, toOrtho] <;> ring

/-- Bounds of the corners of a rectangle, as mapped by `f`. -/
def mapBounds (f : ℚ × ℚ → ℚ × ℚ) (b : Bnds ℚ) : Bnds ℚ :=
  let l := [f (b.left, b.bottom), f (b.left, b.top), f (b.right, b.bottom), f (b.right, b.top)]
  ⟨(l.map Prod.fst).foldl min (f (b.left, b.bottom)).1, (l.map Prod.snd).foldl min (f (b.left, b.bottom)).2, (l.map Prod.fst).foldl max (f (b.left, b.bottom)).1,
    (l.map Prod.snd).foldl max (f (b.left, b.bottom)).2⟩

/-- The upper left corner of the bounds of a DEM in the CRS of the orthos. -/
def turnedCorner (d : DemOut ℚ) : ℚ × ℚ :=
  let b := mapBounds toOrtho ⟨d.t.c, d.t.f + d.t.e * d.h, d.t.c + d.t.a * d.w, d.t.f⟩
  (b.left, b.top)

/-- The DEM of `mosaicDem`, for a camera that sees a rectangle that is from `x` to `x + 6` and from 193 to 199 in the DEM. -/
def turnedDem (x : ℚ) : DemIn ℚ :=
  { mosaicDem x with
    crsEqual := false
    tb := fun b => .ok (mapBounds toDem b)
    boundary := fun _ => .ok [toOrtho (x, 193), toOrtho (x + 6, 193), toOrtho (x + 6, 199), toOrtho (x, 199)] }

/-- The object of the camera. -/
def turnedObj (k : ℕ) : Obj ℚ (List ℚ) :=
  { mosaicObj k with
    crsEqual := false
    reproject := fun _ res d => ⟨fun _ _ => some 0, 2, 2, ⟨res.1, 0, (turnedCorner d).1, 0, -res.2, (turnedCorner d).2⟩⟩ }

theorem turned_made : Made (turnedDem 101) (turnedObj 0) (mosaicMem 0) ∧ Made (turnedDem 103) (turnedObj 1) (mosaicMem 1) := by
  have w0 : winAtZs (turnedDem 101) [0, 100] = .ok ⟨0, 0, 4, 4⟩ := by decide +kernel
  have v0 : winAtZs (turnedDem 101) (demZs (turnedDem 101) ⟨0, 0, 4, 4⟩) = .ok ⟨0, 0, 4, 4⟩ := by decide +kernel
  have i0 : interI ⟨0, 0, 4, 4⟩ ⟨0, 0, 4, 4⟩ = .ok ⟨0, 0, 4, 4⟩ := by decide +kernel
  have w1 : winAtZs (turnedDem 103) [0, 100] = .ok ⟨1, 0, 4, 4⟩ := by decide +kernel
  have v1 : winAtZs (turnedDem 103) (demZs (turnedDem 103) ⟨1, 0, 4, 4⟩) = .ok ⟨1, 0, 4, 4⟩ := by decide +kernel
  have i1 : interI ⟨1, 0, 4, 4⟩ ⟨1, 0, 4, 4⟩ = .ok ⟨1, 0, 4, 4⟩ := by decide +kernel
  have init : ∀ (d : DemIn ℚ) (a : IWin), winAtZs d [d.zlo, d.zhi] = .ok a → winAtZs d (demZs d a) = .ok a → interI a a = .ok a →
      initDem d = .ok (cropDem d a a) := by
    intro d a h1 h2 h3
    unfold initDem
    rw [h1]
    show (do let win ← winAtZs d (demZs d a); let win ← interI win a; .ok (cropDem d a win)) = _
    rw [h2]
    show (do let win ← interI a a; .ok (cropDem d a win)) = _
    rw [h3]
    rfl
  refine ⟨⟨?_, rfl⟩, ⟨?_, rfl⟩⟩
  · rw [init _ _ w0 v0 i0]
    congr 1
    show DemOut.mk _ _ _ _ = DemOut.mk _ _ _ _
    congr 1
    · funext r c
      simp [readWin, turnedDem, mosaicDem, mosaicMem, turnedObj, mosaicObj]
    · decide +kernel
  · rw [init _ _ w1 v1 i1]
    congr 1
    show DemOut.mk _ _ _ _ = DemOut.mk _ _ _ _
    congr 1
    · funext r c
      simp [readWin, turnedDem, mosaicDem, mosaicMem, turnedObj, mosaicObj, add_comm]
    · decide +kernel

theorem turned_writes (k : ℕ) (res : ℚ × ℚ) (h1 : res.1 ≤ 8) (h2 : res.2 ≤ 8) : ∃ f, Writes (turnedObj k) (mosaicArgs res) (mosaicMem k) f := by
  have hi : InfoOk (turnedObj k) := ⟨demo_infoOk.height, demo_infoOk.width, demo_infoOk.block⟩
  have ho : OptsOk (mosaicArgs res).opts := ⟨by simp [Dict.Ok, mosaicArgs, demoArgs], fun _ _ => rfl⟩
  have hready : Ready (turnedObj k) (mosaicArgs res) (mosaicMem k) res "uint8" := by
    refine ⟨rfl, by simp [mosaicArgs, demoArgs], Or.inr ⟨h1, h2⟩, ?_, ⟨by simp [mosaicArgs, demoArgs], by simp, Or.inr (Or.inl rfl)⟩⟩
    intro d hd
    rcases hd with ⟨h, -⟩ | ⟨-, rfl⟩
    · cases h
    · exact ⟨0, by simp [turnedObj, Obj.call], 0, by simp [turnedObj, Obj.call], rfl, by simp [maskArgs, Obj.call, turnedObj]⟩
  obtain ⟨⟨fs', h⟩, -⟩ := C82_completes (turnedObj k) (mosaicArgs res) (mosaicMem k) (fun _ => none) hi ho "ortho.tif" res "uint8"
    (Or.inl rfl) (Or.inr ⟨Or.inl rfl, rfl⟩) hready ⟨Or.inl rfl, Or.inr rfl⟩ (by simp [mosaicArgs, demoArgs])
    ⟨by simp [turnedObj, mosaicObj, demoObj], by simp [turnedObj, mosaicObj, demoObj]⟩ (fun p => demo_small p)
  obtain ⟨res, dtype, nd, f, d, hh, w, r0, c0, e, p, wm, e1, -⟩ := process_ok hi ho (Or.inl rfl) h
  exact ⟨f, hi, ho, _, fs', none, "ortho.tif", Or.inl rfl, h, by rw [e1]; simp [FS.put]⟩

/-- C110 does not hold for a DEM in another CRS, also at the resolution of the DEM and at those that divide it: orthos with 2 m or 1 m pixels, of two cameras on a DEM
with 2 m pixels, in a CRS that is turned a little from that of the DEM, do not lie on one grid. -/
theorem C110_crs_fails (res : ℚ × ℚ) (hres : res = (2, 2) ∨ res = (1, 1)) : ∃ (d₁ d₂ : DemIn ℚ) (o₁ o₂ : Obj ℚ (List ℚ)) (a : Args ℚ) (m₁ m₂ : Mem ℚ) (f₁ f₂ : OrthoFile ℚ),
    SameDem d₁ d₂ ∧ Made d₁ o₁ m₁ ∧ Made d₂ o₂ m₂ ∧ d₁.crsEqual = false ∧ d₂.crsEqual = false ∧ d₁.t = ⟨2, 0, 100, 0, -2, 200⟩ ∧
    a.resolution = some res ∧ Cornered o₁ turnedCorner ∧ Cornered o₂ turnedCorner ∧ Writes o₁ a m₁ f₁ ∧ Writes o₂ a m₂ f₂ ∧
    ¬ SharedGrid f₁.transform f₂.transform := by
  obtain ⟨f₁, h₁⟩ := turned_writes 0 res (by rcases hres with rfl | rfl <;> norm_num) (by rcases hres with rfl | rfl <;> norm_num)
  obtain ⟨f₂, h₂⟩ := turned_writes 1 res (by rcases hres with rfl | rfl <;> norm_num) (by rcases hres with rfl | rfl <;> norm_num)
  have c₁ : Cornered (turnedObj 0) turnedCorner := fun _ _ _ => rfl
  have c₂ : Cornered (turnedObj 1) turnedCorner := fun _ _ _ => rfl
  refine ⟨turnedDem 101, turnedDem 103, _, _, mosaicArgs res, _, _, f₁, f₂, ⟨rfl, rfl, rfl⟩, turned_made.1, turned_made.2, rfl, rfl, rfl, rfl, c₁, c₂, h₁, h₂, fun h => ?_⟩
  obtain ⟨-, i, hi⟩ := (C110_crs_exact rfl rfl h₁ h₂ rfl rfl c₁ c₂).1 h
  have e : (turnedCorner ((turnedObj 1).dem.load (mosaicMem 1))).2 - (turnedCorner ((turnedObj 0).dem.load (mosaicMem 0))).2 = -1 / 5 := by
    norm_num [turnedCorner, turnedObj, mosaicObj, DemRef.load, mapBounds, toOrtho]
  rw [e] at hi
  rcases hres with rfl | rfl
  · have : (-1 : ℤ) = i * 10 := by
      have e : (-1 : ℚ) = (i : ℚ) * 10 := by linarith
      exact_mod_cast e
    omega
  · have : (-1 : ℤ) = i * 5 := by
      have e : (-1 : ℚ) = (i : ℚ) * 5 := by linarith
      exact_mod_cast e
    omega

/-- With 1/5 m pixels they do. -/
example : ∃ f₁ f₂, Writes (turnedObj 0) (mosaicArgs (1 / 5, 1 / 5)) (mosaicMem 0) f₁ ∧ Writes (turnedObj 1) (mosaicArgs (1 / 5, 1 / 5)) (mosaicMem 1) f₂ ∧
    SharedGrid f₁.transform f₂.transform := by
  obtain ⟨f₁, h₁⟩ := turned_writes 0 (1 / 5, 1 / 5) (by norm_num) (by norm_num)
  obtain ⟨f₂, h₂⟩ := turned_writes 1 (1 / 5, 1 / 5) (by norm_num) (by norm_num)
  refine ⟨f₁, f₂, h₁, h₂, (C110_crs_exact rfl rfl h₁ h₂ rfl rfl (corner := turnedCorner) (fun _ _ _ => rfl) fun _ _ _ => rfl).2 ⟨⟨10, ?_⟩, ⟨-1, ?_⟩⟩⟩ <;>
    norm_num [turnedCorner, turnedObj, mosaicObj, DemRef.load, mapBounds, toOrtho]

end Verif.OrthoProcess
