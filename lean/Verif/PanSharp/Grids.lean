import Verif.Common.Window

/-!
# C53 and C63: the grids of pan and multispectral images
-/

set_option autoImplicit false
set_option linter.unusedSectionVars false

namespace Verif.PanSharp
open Verif.Common

variable {K C : Type} [Field K] [LinearOrder K] [IsStrictOrderedRing K] [FloorRing K]

/-! ## Model -/

/-- An open raster file: CRS, transform and size. -/
structure Raster (K C : Type) where
  crs : Option C
  t : Affine K
  w : ℕ
  h : ℕ

/-- `Affine.is_identity` of the `affine` package (which allows rounding errors; here exact). -/
def isIdentity (t : Affine K) : Prop := t = ⟨1, 0, 0, 0, 1, 0⟩

instance (t : Affine K) : Decidable (isIdentity t) := inferInstanceAs (Decidable (t = _))

/-- `ds.crs is None and ds.transform.is_identity`, orthority/pan_sharp.py:98, 113. -/
def Raster.unreferenced (r : Raster K C) : Prop := r.crs.isNone ∧ isIdentity r.t

instance (r : Raster K C) : Decidable r.unreferenced := inferInstanceAs (Decidable (_ ∧ _))

/-- `ds.bounds`. -/
def Raster.bounds (r : Raster K C) : Bnds K := dsBounds r.t r.w r.h

/-- The result of `_get_vrt_profiles`.  `panT`, `panWin.width` and `panWin.height` define the grid of `pan_to_pan`
and `ms_to_pan`; `msT` and `msWin` that of `ms_to_ms` and `pan_to_ms`; `panSrcT` and `msSrcT` are the
`src_transform` items.  The CRSs of the profiles (pan CRS, MS CRS) and the constant items are left out. -/
structure Grids (K : Type) where
  panSrcT : Affine K
  msSrcT : Affine K
  panWin : IWin
  msWin : IWin
  panT : Affine K
  msT : Affine K
  deriving DecidableEq

/-- orthority/pan_sharp.py:143-150 and 155-175: test of resolutions, and transforms of the windows. -/
def finishGrids (panSrcT msSrcT : Affine K) (panWin msWin : IWin) : Res (Grids K) :=
  if |msSrcT.a| < |panSrcT.a| ∨ |msSrcT.e| < |panSrcT.e| then .error .orthorityError
  else .ok ⟨panSrcT, msSrcT, panWin, msWin, panSrcT.window panWin.colOff panWin.rowOff,
    msSrcT.window msWin.colOff msWin.rowOff⟩

/-- orthority/pan_sharp.py:129-135: pan window.  `intersect` is false exactly when `intersection` raises. -/
def sharedPan (tb : Option C → Option C → Bnds K → Res (Bnds K)) (pan ms : Raster K C) : Res IWin := do
  let b ← tb ms.crs pan.crs ms.bounds
  let w ← fromBounds pan.t b
  let full ← fromBounds pan.t pan.bounds
  match w.inter full with
  | .error _ => .error .orthorityError
  | .ok i => .ok (expandWindowToGrid i (0, 0))

/-- orthority/pan_sharp.py:137-141: MS window. -/
def sharedMs (tb : Option C → Option C → Bnds K → Res (Bnds K)) (pan ms : Raster K C) : Res IWin := do
  let b ← tb pan.crs ms.crs pan.bounds
  let w ← fromBounds ms.t b
  let full ← fromBounds ms.t ms.bounds
  let i ← w.inter full
  .ok (expandWindowToGrid i (0, 0))

/-- orthority/pan_sharp.py:82-184 `_get_vrt_profiles`.  `tb` is rasterio's `transform_bounds`.  Warnings are not
modelled. -/
def getGrids (tb : Option C → Option C → Bnds K → Res (Bnds K)) (pan ms : Raster K C) : Res (Grids K) :=
  if ms.unreferenced then
    finishGrids pan.t (pan.t.mul (.scale ((pan.w : K) / ms.w) ((pan.h : K) / ms.h)))
      ⟨0, 0, pan.w, pan.h⟩ ⟨0, 0, ms.w, ms.h⟩
  else if pan.unreferenced then
    finishGrids (ms.t.mul (.scale ((ms.w : K) / pan.w) ((ms.h : K) / pan.h))) ms.t
      ⟨0, 0, pan.w, pan.h⟩ ⟨0, 0, ms.w, ms.h⟩
  else do
    let panWin ← sharedPan tb pan ms
    let msWin ← sharedMs tb pan ms
    finishGrids pan.t ms.t panWin msWin

/-! ## Specification -/

/-- The world point lies on the grid with the given transform and size. -/
def OnGrid (t : Affine K) (win : IWin) (x y : K) : Prop :=
  ∃ u v : K, 0 ≤ u ∧ u ≤ win.width ∧ 0 ≤ v ∧ v ≤ win.height ∧ t.apply u v = (x, y)

/-! ## Lemmas -/

theorem finishGrids_ok {p m : Affine K} {pw mw : IWin} {g : Grids K} (h : finishGrids p m pw mw = .ok g) :
    g = ⟨p, m, pw, mw, p.window pw.colOff pw.rowOff, m.window mw.colOff mw.rowOff⟩ ∧ |p.a| ≤ |m.a| ∧ |p.e| ≤ |m.e| := by
  unfold finishGrids at h
  split_ifs at h with h1
  push Not at h1
  simp only [Except.ok.injEq] at h
  exact ⟨h.symm, h1⟩

theorem getGrids_geo {tb : Option C → Option C → Bnds K → Res (Bnds K)} {pan ms : Raster K C}
    (h1 : ¬ ms.unreferenced) (h2 : ¬ pan.unreferenced) :
    getGrids tb pan ms = (do
      let panWin ← sharedPan tb pan ms
      let msWin ← sharedMs tb pan ms
      finishGrids pan.t ms.t panWin msWin) := by
  unfold getGrids
  rw [if_neg h1, if_neg h2]

theorem sharedPan_ok {tb : Option C → Option C → Bnds K → Res (Bnds K)} {pan ms : Raster K C} {win : IWin}
    (h : sharedPan tb pan ms = .ok win) : ∃ b w full i, tb ms.crs pan.crs ms.bounds = .ok b ∧
      fromBounds pan.t b = .ok w ∧ fromBounds pan.t pan.bounds = .ok full ∧ w.inter full = .ok i ∧
      win = expandWindowToGrid i (0, 0) := by
  unfold sharedPan at h
  cases e1 : tb ms.crs pan.crs ms.bounds with
  | error e => rw [e1] at h; cases h
  | ok b =>
    rw [e1, Res.ok_bind] at h
    cases e2 : fromBounds pan.t b with
    | error e => rw [e2] at h; cases h
    | ok w =>
      rw [e2, Res.ok_bind] at h
      cases e3 : fromBounds pan.t pan.bounds with
      | error e => rw [e3] at h; cases h
      | ok full =>
        rw [e3, Res.ok_bind] at h
        cases e4 : w.inter full with
        | error e => rw [e4] at h; cases h
        | ok i =>
          rw [e4] at h
          cases h
          exact ⟨b, w, full, i, rfl, e2, rfl, e4, rfl⟩

theorem sharedMs_ok {tb : Option C → Option C → Bnds K → Res (Bnds K)} {pan ms : Raster K C} {win : IWin}
    (h : sharedMs tb pan ms = .ok win) : ∃ b w full i, tb pan.crs ms.crs pan.bounds = .ok b ∧
      fromBounds ms.t b = .ok w ∧ fromBounds ms.t ms.bounds = .ok full ∧ w.inter full = .ok i ∧
      win = expandWindowToGrid i (0, 0) := by
  unfold sharedMs at h
  cases e1 : tb pan.crs ms.crs pan.bounds with
  | error e => rw [e1] at h; cases h
  | ok b =>
    rw [e1, Res.ok_bind] at h
    cases e2 : fromBounds ms.t b with
    | error e => rw [e2] at h; cases h
    | ok w =>
      rw [e2, Res.ok_bind] at h
      cases e3 : fromBounds ms.t ms.bounds with
      | error e => rw [e3] at h; cases h
      | ok full =>
        rw [e3, Res.ok_bind] at h
        cases e4 : w.inter full with
        | error e => rw [e4] at h; cases h
        | ok i =>
          rw [e4] at h
          cases h
          exact ⟨b, w, full, i, rfl, e2, rfl, e4, rfl⟩

theorem fromBounds_det {t : Affine K} {b : Bnds K} {w : RWin K} (h : fromBounds t b = .ok w) : t.det ≠ 0 := by
  unfold fromBounds at h
  split_ifs at h with h1 h2 h3
  exact h3

theorem onGrid_of {t : Affine K} {b₁ b₂ : Bnds K} {w₁ w₂ i : RWin K} (h1 : fromBounds t b₁ = .ok w₁)
    (h2 : fromBounds t b₂ = .ok w₂) (h3 : w₁.inter w₂ = .ok i) {x y : K} (hx : b₁.Has x y) (hy : b₂.Has x y) :
    OnGrid (t.window (expandWindowToGrid i (0, 0)).colOff (expandWindowToGrid i (0, 0)).rowOff)
      (expandWindowToGrid i (0, 0)) x y := by
  have hd := fromBounds_det h1
  have ha := t.apply_inv_apply hd x y
  set u := (t.inv.apply x y).1
  set v := (t.inv.apply x y).2
  have g1 : w₁.Has u v := fromBounds_has h1 (by rw [ha]; exact hx)
  have g2 : w₂.Has u v := fromBounds_has h2 (by rw [ha]; exact hy)
  have g3 := expand_has i (((inter_ok h3).1 u v).2 ⟨g1, g2⟩)
  obtain ⟨c1, c2, c3, c4⟩ := g3
  push_cast at c2 c4
  refine ⟨u - (expandWindowToGrid i (0, 0)).colOff, v - (expandWindowToGrid i (0, 0)).rowOff,
    by linarith, by linarith, by linarith, by linarith, ?_⟩
  rw [Affine.window_apply, sub_add_cancel, sub_add_cancel, ha]

/-! ## Theorems -/

/-- C53: with georeferenced images, every world point that lies in the bounds of the pan image and in those of the MS
image (as transformed to the CRS of the pan image) lies on the pan grid; likewise for the MS grid.  For all
invertible transforms, rotated ones too. -/
theorem C53_cover (tb : Option C → Option C → Bnds K → Res (Bnds K)) (pan ms : Raster K C) (g : Grids K)
    (hm : ¬ ms.unreferenced) (hp : ¬ pan.unreferenced) (h : getGrids tb pan ms = .ok g) :
    (∃ b, tb ms.crs pan.crs ms.bounds = .ok b ∧
      ∀ x y, pan.bounds.Has x y → b.Has x y → OnGrid g.panT g.panWin x y) ∧
    (∃ b, tb pan.crs ms.crs pan.bounds = .ok b ∧
      ∀ x y, ms.bounds.Has x y → b.Has x y → OnGrid g.msT g.msWin x y) := by
  rw [getGrids_geo hm hp] at h
  cases e1 : sharedPan tb pan ms with
  | error e => rw [e1] at h; cases h
  | ok pw =>
    rw [e1, Res.ok_bind] at h
    cases e2 : sharedMs tb pan ms with
    | error e => rw [e2] at h; cases h
    | ok mw =>
      rw [e2, Res.ok_bind] at h
      obtain ⟨rfl, -⟩ := finishGrids_ok h
      obtain ⟨b, w, full, i, a1, a2, a3, a4, rfl⟩ := sharedPan_ok e1
      obtain ⟨b', w', full', i', c1, c2, c3, c4, rfl⟩ := sharedMs_ok e2
      exact ⟨⟨b, a1, fun x y h1 h2 => onGrid_of a2 a3 a4 h2 h1⟩, ⟨b', c1, fun x y h1 h2 => onGrid_of c2 c3 c4 h2 h1⟩⟩

/-- C53: the grids are whole pixels of the source grids, shifted by whole pixels, and have positive sizes. -/
theorem C53_whole_pixels (tb : Option C → Option C → Bnds K → Res (Bnds K)) (pan ms : Raster K C) (g : Grids K)
    (hsz : 0 < pan.w ∧ 0 < pan.h ∧ 0 < ms.w ∧ 0 < ms.h) (h : getGrids tb pan ms = .ok g) :
    (∀ u v, g.panT.apply u v = g.panSrcT.apply (u + g.panWin.colOff) (v + g.panWin.rowOff)) ∧
    (∀ u v, g.msT.apply u v = g.msSrcT.apply (u + g.msWin.colOff) (v + g.msWin.rowOff)) ∧
    0 < g.panWin.width ∧ 0 < g.panWin.height ∧ 0 < g.msWin.width ∧ 0 < g.msWin.height ∧
    (¬ ms.unreferenced → ¬ pan.unreferenced → g.panSrcT = pan.t ∧ g.msSrcT = ms.t) := by
  have key : ∃ p m pw mw, finishGrids p m pw mw = .ok g ∧ 0 < pw.width ∧ 0 < pw.height ∧ 0 < mw.width ∧
      0 < mw.height ∧ (¬ ms.unreferenced → ¬ pan.unreferenced → p = pan.t ∧ m = ms.t) := by
    by_cases hm : ms.unreferenced
    · unfold getGrids at h
      rw [if_pos hm] at h
      exact ⟨_, _, _, _, h, by simp [hsz], by simp [hsz], by simp [hsz], by simp [hsz], fun h' => absurd hm h'⟩
    by_cases hp : pan.unreferenced
    · unfold getGrids at h
      rw [if_neg hm, if_pos hp] at h
      exact ⟨_, _, _, _, h, by simp [hsz], by simp [hsz], by simp [hsz], by simp [hsz], fun _ h' => absurd hp h'⟩
    rw [getGrids_geo hm hp] at h
    cases e1 : sharedPan tb pan ms with
    | error e => rw [e1] at h; cases h
    | ok pw =>
      rw [e1, Res.ok_bind] at h
      cases e2 : sharedMs tb pan ms with
      | error e => rw [e2] at h; cases h
      | ok mw =>
        rw [e2, Res.ok_bind] at h
        obtain ⟨b, w, full, i, a1, a2, a3, a4, rfl⟩ := sharedPan_ok e1
        obtain ⟨b', w', full', i', c1, c2, c3, c4, rfl⟩ := sharedMs_ok e2
        have p1 := inter_ok a4
        have p2 := inter_ok c4
        have q1 := C09_expand_size i p1.2.1 p1.2.2
        have q2 := C09_expand_size i' p2.2.1 p2.2.2
        exact ⟨_, _, _, _, h, q1.1, q1.2.1, q2.1, q2.2.1, fun _ _ => ⟨rfl, rfl⟩⟩
  obtain ⟨p, m, pw, mw, hf, s1, s2, s3, s4, s5⟩ := key
  obtain ⟨rfl, -⟩ := finishGrids_ok hf
  exact ⟨fun u v => Affine.window_apply _ _ _ _ _, fun u v => Affine.window_apply _ _ _ _ _, s1, s2, s3, s4, s5⟩

theorem dsBounds_northUp {t : Affine K} (ht : NorthUp t) (w h : K) :
    dsBounds t w h = ⟨t.c, t.f + t.e * h, t.c + t.a * w, t.f⟩ := by
  unfold dsBounds
  rw [if_pos ⟨ht.b, ht.d⟩]

theorem northUp_apply {t : Affine K} (ht : NorthUp t) (u v : K) : t.apply u v = (t.a * u + t.c, t.e * v + t.f) := by
  unfold Affine.apply
  rw [ht.b, ht.d]
  simp

/-- For a north-up transform a window made from bounds has exactly the pixel locations of the bounds. -/
theorem northUp_has {t : Affine K} (ht : NorthUp t) {b : Bnds K} {w : RWin K} (h1 : b.left ≤ b.right)
    (h2 : b.bottom ≤ b.top) (h : fromBounds t b = .ok w) (u v : K) :
    w.Has u v ↔ b.Has (t.apply u v).1 (t.apply u v).2 := by
  refine ⟨fun hw => ?_, fun hb => fromBounds_has h hb⟩
  rw [fromBounds_northUp ht h1 h2] at h
  cases h
  have ha := ht.a
  have he := ht.e
  obtain ⟨c1, c2, c3, c4⟩ := hw
  simp only at c1 c2 c3 c4
  rw [northUp_apply ht]
  rw [div_le_iff₀ ha] at c1
  rw [div_le_iff_of_neg he] at c3
  have c2' : u ≤ (b.right - t.c) / t.a := c2.trans (le_of_eq (by ring))
  have c4' : v ≤ (b.bottom - t.f) / t.e := c4.trans (le_of_eq (by ring))
  rw [le_div_iff₀ ha] at c2'
  rw [le_div_iff_of_neg he] at c4'
  exact ⟨by simp only; linarith, by simp only; linarith, by simp only; linarith, by simp only; linarith⟩

theorem northUp_full {t : Affine K} (ht : NorthUp t) (w h : K) (hw : 0 ≤ w) (hh : 0 ≤ h) :
    fromBounds t (dsBounds t w h) = .ok ⟨0, 0, w, h⟩ := by
  have ha := ht.a
  have he := ht.e
  have g1 := mul_nonneg ha.le hw
  have g2 := mul_nonpos_of_nonpos_of_nonneg he.le hh
  rw [dsBounds_northUp ht, fromBounds_northUp ht (by simp only; linarith) (by simp only; linarith)]
  congr 2
  · simp
  · simp
  · field_simp; ring
  · have := he.ne; field_simp; ring

/-- C53: for north-up images the windows are the least whole pixel windows that have the overlap: they lie in the
images, and in every other whole pixel window of which the overlap is a part. -/
theorem C53_least (tb : Option C → Option C → Bnds K → Res (Bnds K)) (pan ms : Raster K C) (g : Grids K)
    (hm : ¬ ms.unreferenced) (hp : ¬ pan.unreferenced) (hup : NorthUp pan.t) (hum : NorthUp ms.t)
    (hsort : ∀ a b B B', B.left ≤ B.right → B.bottom ≤ B.top → tb a b B = .ok B' → B'.left ≤ B'.right ∧ B'.bottom ≤ B'.top)
    (h : getGrids tb pan ms = .ok g) :
    g.panWin.Inside ⟨0, 0, pan.w, pan.h⟩ ∧ g.msWin.Inside ⟨0, 0, ms.w, ms.h⟩ ∧
    (∃ b, tb ms.crs pan.crs ms.bounds = .ok b ∧ ∀ iw : IWin,
      (∀ u v, pan.bounds.Has (pan.t.apply u v).1 (pan.t.apply u v).2 → b.Has (pan.t.apply u v).1 (pan.t.apply u v).2 →
        iw.Has u v) → g.panWin.Inside iw) ∧
    (∃ b, tb pan.crs ms.crs pan.bounds = .ok b ∧ ∀ iw : IWin,
      (∀ u v, ms.bounds.Has (ms.t.apply u v).1 (ms.t.apply u v).2 → b.Has (ms.t.apply u v).1 (ms.t.apply u v).2 →
        iw.Has u v) → g.msWin.Inside iw) := by
  rw [getGrids_geo hm hp] at h
  cases e1 : sharedPan tb pan ms with
  | error e => rw [e1] at h; cases h
  | ok pw =>
    rw [e1, Res.ok_bind] at h
    cases e2 : sharedMs tb pan ms with
    | error e => rw [e2] at h; cases h
    | ok mw =>
      rw [e2, Res.ok_bind] at h
      obtain ⟨rfl, -⟩ := finishGrids_ok h
      obtain ⟨b, w, full, i, a1, a2, a3, a4, rfl⟩ := sharedPan_ok e1
      obtain ⟨b', w', full', i', c1, c2, c3, c4, rfl⟩ := sharedMs_ok e2
      have hfull : ∀ {t : Affine K} {W H : ℕ} {full : RWin K}, NorthUp t →
          fromBounds t (dsBounds t W H) = .ok full → full = ⟨0, 0, W, H⟩ := by
        intro t W H full ht hf
        rw [northUp_full ht _ _ (Nat.cast_nonneg _) (Nat.cast_nonneg _)] at hf
        cases hf; rfl
      have sorted : ∀ {t : Affine K}, NorthUp t → ∀ W H : ℕ, (dsBounds t (W : K) H).left ≤ (dsBounds t (W : K) H).right ∧
          (dsBounds t (W : K) H).bottom ≤ (dsBounds t (W : K) H).top := by
        intro t ht W H
        rw [dsBounds_northUp ht]
        have q1 := mul_nonneg ht.a.le (Nat.cast_nonneg (α := K) W)
        have q2 := mul_nonpos_of_nonpos_of_nonneg ht.e.le (Nat.cast_nonneg (α := K) H)
        constructor <;> simp only <;> linarith
      have gen : ∀ {t : Affine K} {W H : ℕ} {b : Bnds K} {w full i : RWin K}, NorthUp t → b.left ≤ b.right →
          b.bottom ≤ b.top → fromBounds t b = .ok w → fromBounds t (dsBounds t W H) = .ok full →
          w.inter full = .ok i → (expandWindowToGrid i (0, 0)).Inside ⟨0, 0, W, H⟩ ∧
          ∀ iw : IWin, (∀ u v, (dsBounds t (W : K) H).Has (t.apply u v).1 (t.apply u v).2 →
            b.Has (t.apply u v).1 (t.apply u v).2 → iw.Has u v) → (expandWindowToGrid i (0, 0)).Inside iw := by
        intro t W H b w full i ht s1 s2 f1 f2 f3
        have hi := inter_ok f3
        have hfe := hfull ht f2
        constructor
        · refine expand_inside i hi.2.1.le hi.2.2.le _ fun u v huv => ?_
          have := ((hi.1 u v).1 huv).2
          rw [hfe] at this
          simpa [RWin.Has, IWin.Has] using this
        · intro iw hiw
          refine expand_inside i hi.2.1.le hi.2.2.le _ fun u v huv => ?_
          have := (hi.1 u v).1 huv
          refine hiw u v ?_ ((northUp_has ht s1 s2 f1 u v).1 this.1)
          have hs := sorted ht W H
          exact (northUp_has ht hs.1 hs.2 f2 u v).1 this.2
      have s1 := hsort _ _ _ _ (sorted hum _ _).1 (sorted hum _ _).2 a1
      have s2 := hsort _ _ _ _ (sorted hup _ _).1 (sorted hup _ _).2 c1
      have r1 := gen hup s1.1 s1.2 a2 a3 a4
      have r2 := gen hum s2.1 s2.2 c2 c3 c4
      exact ⟨r1.1, r2.1, ⟨b, a1, r1.2⟩, ⟨b', c1, r2.2⟩⟩

/-- C53: when the MS image is not georeferenced its grid spans the bounds of the pan image: a location at the same
fraction of the width and height of the two images is the same world point.  The images are used whole.  The pair is
accepted exactly when the pan image has at least as many columns and rows. -/
theorem C53_ms_unreferenced (tb : Option C → Option C → Bnds K → Res (Bnds K)) (pan ms : Raster K C)
    (hsz : 0 < pan.w ∧ 0 < pan.h ∧ 0 < ms.w ∧ 0 < ms.h) (hpan : pan.t.a ≠ 0 ∧ pan.t.e ≠ 0) (hm : ms.unreferenced) :
    (∀ g, getGrids tb pan ms = .ok g → g.panWin = ⟨0, 0, pan.w, pan.h⟩ ∧ g.msWin = ⟨0, 0, ms.w, ms.h⟩ ∧
      g.panSrcT = pan.t ∧ (∀ u v, g.panT.apply u v = pan.t.apply u v) ∧
      ∀ s q, g.msT.apply (s * ms.w) (q * ms.h) = g.panT.apply (s * pan.w) (q * pan.h)) ∧
    ((∃ g, getGrids tb pan ms = .ok g) ↔ ms.w ≤ pan.w ∧ ms.h ≤ pan.h) := by
  obtain ⟨z1, z2, z3, z4⟩ := hsz
  have y3 : (ms.w : K) ≠ 0 := by exact_mod_cast z3.ne'
  have y4 : (ms.h : K) ≠ 0 := by exact_mod_cast z4.ne'
  have x3 : (0 : K) < ms.w := by exact_mod_cast z3
  have x4 : (0 : K) < ms.h := by exact_mod_cast z4
  constructor
  · intro g h
    unfold getGrids at h
    rw [if_pos hm] at h
    obtain ⟨rfl, -⟩ := finishGrids_ok h
    refine ⟨rfl, rfl, rfl, fun u v => by simp [Affine.window_apply], fun s q => ?_⟩
    simp only [Affine.window_apply, Int.cast_zero, add_zero, Affine.apply_mul]
    congr 1
    · simp only [Affine.apply, Affine.scale]; field_simp; ring
    · simp only [Affine.apply, Affine.scale]; field_simp; ring
  · unfold getGrids
    rw [if_pos hm]
    unfold finishGrids
    have e1 : (pan.t.mul (.scale ((pan.w : K) / ms.w) ((pan.h : K) / ms.h))).a = pan.t.a * (pan.w / ms.w) := by
      simp [Affine.mul, Affine.scale]
    have e2 : (pan.t.mul (.scale ((pan.w : K) / ms.w) ((pan.h : K) / ms.h))).e = pan.t.e * (pan.h / ms.h) := by
      simp [Affine.mul, Affine.scale]
    have gen : ∀ (a : K) (p m : ℕ), a ≠ 0 → 0 < m → (|a * (p / m)| < |a| ↔ p < m) := by
      intro a p m ha hm'
      have hmK : (0 : K) < m := by exact_mod_cast hm'
      have hpK : (0 : K) ≤ p := Nat.cast_nonneg _
      rw [abs_mul, abs_of_nonneg (div_nonneg hpK hmK.le), mul_lt_iff_lt_one_right (abs_pos.2 ha), div_lt_one hmK]
      exact Nat.cast_lt
    rw [e1, e2]
    simp only [gen _ _ _ hpan.1 z3, gen _ _ _ hpan.2 z4]
    constructor
    · rintro ⟨g, hg⟩
      split_ifs at hg with h1
      push Not at h1
      exact h1
    · intro h1
      rw [if_neg (by omega)]
      exact ⟨_, rfl⟩

/-- C53: the same when only the pan image is not georeferenced. -/
theorem C53_pan_unreferenced (tb : Option C → Option C → Bnds K → Res (Bnds K)) (pan ms : Raster K C)
    (hsz : 0 < pan.w ∧ 0 < pan.h ∧ 0 < ms.w ∧ 0 < ms.h) (hms : ms.t.a ≠ 0 ∧ ms.t.e ≠ 0) (hm : ¬ ms.unreferenced)
    (hp : pan.unreferenced) :
    (∀ g, getGrids tb pan ms = .ok g → g.panWin = ⟨0, 0, pan.w, pan.h⟩ ∧ g.msWin = ⟨0, 0, ms.w, ms.h⟩ ∧
      g.msSrcT = ms.t ∧ (∀ u v, g.msT.apply u v = ms.t.apply u v) ∧
      ∀ s q, g.msT.apply (s * ms.w) (q * ms.h) = g.panT.apply (s * pan.w) (q * pan.h)) ∧
    ((∃ g, getGrids tb pan ms = .ok g) ↔ ms.w ≤ pan.w ∧ ms.h ≤ pan.h) := by
  obtain ⟨z1, z2, z3, z4⟩ := hsz
  have y3 : (pan.w : K) ≠ 0 := by exact_mod_cast z1.ne'
  have y4 : (pan.h : K) ≠ 0 := by exact_mod_cast z2.ne'
  constructor
  · intro g h
    unfold getGrids at h
    rw [if_neg hm, if_pos hp] at h
    obtain ⟨rfl, -⟩ := finishGrids_ok h
    refine ⟨rfl, rfl, rfl, fun u v => by simp [Affine.window_apply], fun s q => ?_⟩
    simp only [Affine.window_apply, Int.cast_zero, add_zero, Affine.apply_mul]
    congr 1
    · simp only [Affine.apply, Affine.scale]; field_simp; ring
    · simp only [Affine.apply, Affine.scale]; field_simp; ring
  · unfold getGrids
    rw [if_neg hm, if_pos hp]
    unfold finishGrids
    have e1 : (ms.t.mul (.scale ((ms.w : K) / pan.w) ((ms.h : K) / pan.h))).a = ms.t.a * (ms.w / pan.w) := by
      simp [Affine.mul, Affine.scale]
    have e2 : (ms.t.mul (.scale ((ms.w : K) / pan.w) ((ms.h : K) / pan.h))).e = ms.t.e * (ms.h / pan.h) := by
      simp [Affine.mul, Affine.scale]
    have gen : ∀ (a : K) (p m : ℕ), a ≠ 0 → 0 < p → (|a| < |a * (m / p)| ↔ p < m) := by
      intro a p m ha hp'
      have hpK : (0 : K) < p := by exact_mod_cast hp'
      have hmK : (0 : K) ≤ m := Nat.cast_nonneg _
      rw [abs_mul, abs_of_nonneg (div_nonneg hmK hpK.le), lt_mul_iff_one_lt_right (abs_pos.2 ha), one_lt_div hpK]
      exact Nat.cast_lt
    rw [e1, e2]
    simp only [gen _ _ _ hms.1 z1, gen _ _ _ hms.2 z2]
    constructor
    · rintro ⟨g, hg⟩
      split_ifs at hg with h1
      push Not at h1
      exact h1
    · intro h1
      rw [if_neg (by omega)]
      exact ⟨_, rfl⟩

/-- Two bounds share an area. -/
def Overlap (a b : Bnds K) : Prop :=
  max a.left b.left < min a.right b.right ∧ max a.bottom b.bottom < min a.top b.top

/-- C53 and C63, one CRS, north-up images: the pair is accepted exactly when the bounds share an area and pan pixels
are no wider and no higher than MS pixels; otherwise `OrthorityError` is raised. -/
theorem C63_same_crs_partial (tb : Option C → Option C → Bnds K → Res (Bnds K)) (pan ms : Raster K C)
    (hcrs : pan.crs = ms.crs) (hup : NorthUp pan.t) (hum : NorthUp ms.t) (hm : ¬ ms.unreferenced)
    (hp : ¬ pan.unreferenced) (htb : ∀ c B, B.left ≤ B.right → B.bottom ≤ B.top → tb c c B = .ok B) :
    ((∃ g, getGrids tb pan ms = .ok g) ↔ Overlap pan.bounds ms.bounds ∧ pan.t.a ≤ ms.t.a ∧ |pan.t.e| ≤ |ms.t.e|) ∧
    ∀ e, getGrids tb pan ms = .error e → e = .orthorityError := by
  have hs : ∀ {t : Affine K} (W H : ℕ), NorthUp t → (dsBounds t (W : K) H).left ≤ (dsBounds t (W : K) H).right ∧
      (dsBounds t (W : K) H).bottom ≤ (dsBounds t (W : K) H).top := by
    intro t W H ht
    rw [dsBounds_northUp ht]
    have q1 := mul_nonneg ht.a.le (Nat.cast_nonneg (α := K) W)
    have q2 := mul_nonpos_of_nonpos_of_nonneg ht.e.le (Nat.cast_nonneg (α := K) H)
    constructor <;> simp only <;> linarith
  have hps := hs pan.w pan.h hup
  have hms := hs ms.w ms.h hum
  -- intersection in pixel coordinates of one image is non-empty exactly when the bounds overlap
  have gen : ∀ {t : Affine K} {A B : Bnds K}, NorthUp t → A.left ≤ A.right → A.bottom ≤ A.top → B.left ≤ B.right →
      B.bottom ≤ B.top → ∃ wa wb, fromBounds t A = .ok wa ∧ fromBounds t B = .ok wb ∧
      ((∃ i, wa.inter wb = .ok i) ↔ Overlap A B) ∧ ∀ e, wa.inter wb = .error e → e = .windowError := by
    intro t A B ht a1 a2 b1 b2
    refine ⟨_, _, fromBounds_northUp ht a1 a2, fromBounds_northUp ht b1 b2, ?_, ?_⟩
    · have ha := ht.a
      have he := ht.e
      have lin : ∀ x y z w : K, (max ((x - t.c) / t.a) ((y - t.c) / t.a) <
          min ((z - t.c) / t.a) ((w - t.c) / t.a) ↔ max x y < min z w) := by
        intro x y z w
        simp only [max_lt_iff, lt_min_iff, div_lt_div_iff_of_pos_right ha, sub_lt_sub_iff_right]
      have lin' : ∀ x y z w : K, (max ((x - t.f) / t.e) ((y - t.f) / t.e) <
          min ((z - t.f) / t.e) ((w - t.f) / t.e) ↔ max z w < min x y) := by
        intro x y z w
        simp only [max_lt_iff, lt_min_iff, div_lt_div_right_of_neg he, sub_lt_sub_iff_right]
        tauto
      unfold RWin.inter Overlap
      simp only
      have q1 : ∀ x y : K, (x - t.c) / t.a + (y - x) / t.a = (y - t.c) / t.a := by intros; ring
      have q2 : ∀ x y : K, (x - t.f) / t.e + (y - x) / t.e = (y - t.f) / t.e := by intros; ring
      rw [q1, q1, q2, q2]
      rw [← lin A.left B.left A.right B.right, ← lin' A.top B.top A.bottom B.bottom]
      split_ifs with hh
      · constructor
        · rintro ⟨i, hi⟩; cases hi
        · rintro ⟨h1, h2⟩
          rcases hh with hh | hh
          · exact absurd hh (not_le.2 h1)
          · exact absurd hh (not_le.2 h2)
      · push Not at hh
        exact ⟨fun _ => hh, fun _ => ⟨_, rfl⟩⟩
    · intro e he
      unfold RWin.inter at he
      simp only at he
      split_ifs at he
      cases he; rfl
  have hov : Overlap ms.bounds pan.bounds ↔ Overlap pan.bounds ms.bounds := by
    unfold Overlap
    rw [max_comm ms.bounds.left, min_comm ms.bounds.right, max_comm ms.bounds.bottom, min_comm ms.bounds.top]
  obtain ⟨wa, wb, f1, f2, f3, f4⟩ := gen hup hms.1 hms.2 hps.1 hps.2
  obtain ⟨va, vb, k1, k2, k3, k4⟩ := gen hum hps.1 hps.2 hms.1 hms.2
  have s1 : sharedPan tb pan ms = match wa.inter wb with
      | .error _ => .error .orthorityError
      | .ok i => .ok (expandWindowToGrid i (0, 0)) := by
    unfold sharedPan
    unfold Raster.bounds
    rw [hcrs, htb _ _ hms.1 hms.2, Res.ok_bind]
    rw [f1, Res.ok_bind, f2]
    rfl
  have s2 : sharedMs tb pan ms = (va.inter vb >>= fun i => .ok (expandWindowToGrid i (0, 0))) := by
    unfold sharedMs
    unfold Raster.bounds
    rw [hcrs, htb _ _ hps.1 hps.2, Res.ok_bind]
    rw [k1, Res.ok_bind, k2]
    rfl
  rw [getGrids_geo hm hp, s1, s2]
  have hres : ∀ pw mw, ((∃ g, finishGrids pan.t ms.t pw mw = .ok g) ↔ pan.t.a ≤ ms.t.a ∧ |pan.t.e| ≤ |ms.t.e|) ∧
      ∀ e, finishGrids pan.t ms.t pw mw = .error e → e = .orthorityError := by
    intro pw mw
    unfold finishGrids
    rw [abs_of_pos hup.a, abs_of_pos hum.a]
    split_ifs with h1
    · refine ⟨⟨(by rintro ⟨g, hg⟩; cases hg), fun h2 => ?_⟩, fun e he => by cases he; rfl⟩
      rcases h1 with h1 | h1
      · exact absurd h2.1 (not_le.2 h1)
      · exact absurd h2.2 (not_le.2 h1)
    · push Not at h1
      exact ⟨⟨fun _ => h1, fun _ => ⟨_, rfl⟩⟩, fun e he => by cases he⟩
  by_cases ho : Overlap pan.bounds ms.bounds
  · obtain ⟨i, hi⟩ := f3.2 (hov.2 ho)
    obtain ⟨j, hj⟩ := k3.2 ho
    rw [hi, hj]
    have := hres (expandWindowToGrid i (0, 0)) (expandWindowToGrid j (0, 0))
    constructor
    · exact this.1.trans ⟨fun h => ⟨ho, h⟩, fun h => h.2⟩
    · exact this.2
  · cases hi : wa.inter wb with
    | ok i => exact absurd (hov.1 (f3.1 ⟨i, hi⟩)) ho
    | error e =>
      refine ⟨⟨(by rintro ⟨g, hg⟩; cases hg), fun h => absurd h.1 ho⟩, fun e he => by cases he; rfl⟩

/-- `transform_bounds` between two CRSs, one of which has units `s` times those of the other. -/
def unitTb (s : K) : Option Bool → Option Bool → Bnds K → Res (Bnds K)
  | some false, some true, b => .ok ⟨b.left * s, b.bottom * s, b.right * s, b.top * s⟩
  | some true, some false, b => .ok ⟨b.left / s, b.bottom / s, b.right / s, b.top / s⟩
  | some _, some _, b => .ok b
  | _, _, _ => .error .crsError

/-- C63 refuted across CRSs: the same ground in metres (pan, half metre pixels) and in degrees (MS, two metre pixels
of 1/50000 degree).  The pan pixels are smaller on the ground, but `OrthorityError` is raised since 1/2 is more than
1/50000. -/
theorem C63_units_fails :
    let pan : Raster ℚ Bool := ⟨some false, ⟨1 / 2, 0, 0, 0, -1 / 2, 0⟩, 400, 400⟩
    let ms : Raster ℚ Bool := ⟨some true, ⟨1 / 50000, 0, 0, 0, -1 / 50000, 0⟩, 100, 100⟩
    unitTb (1 / 100000) ms.crs pan.crs ms.bounds = .ok pan.bounds ∧
    getGrids (unitTb (1 / 100000)) pan ms = .error .orthorityError := by
  constructor <;> decide +kernel

/-- and a pan image with coarser pixels than the MS image on the ground is accepted: pan in degrees, MS in metres. -/
theorem C63_units_accepts_fails :
    let pan : Raster ℚ Bool := ⟨some true, ⟨1 / 50000, 0, 0, 0, -1 / 50000, 0⟩, 100, 100⟩
    let ms : Raster ℚ Bool := ⟨some false, ⟨1 / 2, 0, 0, 0, -1 / 2, 0⟩, 400, 400⟩
    unitTb (1 / 100000) ms.crs pan.crs ms.bounds = .ok pan.bounds ∧
    ∃ g, getGrids (unitTb (1 / 100000)) pan ms = .ok g ∧ g.panWin = ⟨0, 0, 100, 100⟩ ∧ g.msWin = ⟨0, 0, 400, 400⟩ := by
  refine ⟨by decide +kernel, ⟨⟨1 / 50000, 0, 0, 0, -1 / 50000, 0⟩, ⟨1 / 2, 0, 0, 0, -1 / 2, 0⟩, ⟨0, 0, 100, 100⟩,
    ⟨0, 0, 400, 400⟩, ⟨1 / 50000, 0, 0, 0, -1 / 50000, 0⟩, ⟨1 / 2, 0, 0, 0, -1 / 2, 0⟩⟩, by decide +kernel, rfl, rfl⟩

/-- Bounds of a box turned by the rotation with cosine 3/5 and sine 4/5, as `transform_bounds` gives them. -/
def turnBounds (s : ℚ) (b : Bnds ℚ) : Bnds ℚ :=
  let X := fun x y : ℚ => 3 / 5 * x - s * (4 / 5) * y
  let Y := fun x y : ℚ => s * (4 / 5) * x + 3 / 5 * y
  ⟨min4 (X b.left b.bottom) (X b.left b.top) (X b.right b.bottom) (X b.right b.top),
   min4 (Y b.left b.bottom) (Y b.left b.top) (Y b.right b.bottom) (Y b.right b.top),
   max4 (X b.left b.bottom) (X b.left b.top) (X b.right b.bottom) (X b.right b.top),
   max4 (Y b.left b.bottom) (Y b.left b.top) (Y b.right b.bottom) (Y b.right b.top)⟩

/-- `transform_bounds` between two CRSs, one of which is turned against the other. -/
def turnTb : Option Bool → Option Bool → Bnds ℚ → Res (Bnds ℚ)
  | some false, some true, b => .ok (turnBounds 1 b)
  | some true, some false, b => .ok (turnBounds (-1) b)
  | some _, some _, b => .ok b
  | _, _, _ => .error .crsError

/-- C53: images that do not overlap can pass the overlap test, which only looks at the bounds in the CRS of the pan
image, and then end in a `WindowError` instead of the documented `OrthorityError`. -/
theorem C53_window_error_fails :
    let pan : Raster ℚ Bool := ⟨some false, ⟨1, 0, 0, 0, -1, 10⟩, 10, 10⟩
    let ms : Raster ℚ Bool := ⟨some true, ⟨1, 0, 7, 0, -1, 10⟩, 10, 10⟩
    getGrids turnTb pan ms = .error .windowError := by
  intro pan ms
  decide +kernel

/-- Two images in one CRS that overlap in part. -/
example : getGrids (unitTb (1 : ℚ)) ⟨some true, ⟨1, 0, 0, 0, -1, 20⟩, 20, 20⟩
    ⟨some true, ⟨3, 0, 7 / 2, 0, -3, 18⟩, 4, 9⟩ =
    .ok ⟨⟨1, 0, 0, 0, -1, 20⟩, ⟨3, 0, 7 / 2, 0, -3, 18⟩, ⟨3, 2, 13, 18⟩, ⟨0, 0, 4, 6⟩, ⟨1, 0, 3, 0, -1, 18⟩,
      ⟨3, 0, 7 / 2, 0, -3, 18⟩⟩ := by
  decide +kernel

end Verif.PanSharp
