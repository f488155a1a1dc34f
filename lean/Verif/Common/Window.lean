import Verif.Common.Props
import Verif.Base.Affine

/-!
# rasterio windows and bounds, as used by orthority/ortho.py and orthority/pan_sharp.py
-/

set_option autoImplicit false
set_option linter.unusedSectionVars false

namespace Verif.Common

variable {K : Type} [Field K] [LinearOrder K] [IsStrictOrderedRing K] [FloorRing K]

/-- `rasterio.coords.BoundingBox`. -/
structure Bnds (K : Type) where
  left : K
  bottom : K
  right : K
  top : K
  deriving DecidableEq

/-- Smallest of four numbers. -/
def min4 (a b c d : K) : K := min (min a b) (min c d)

/-- Largest of four numbers. -/
def max4 (a b c d : K) : K := max (max a b) (max c d)

/-- `rasterio.windows.from_bounds`, called by `DatasetBase.window` in orthority/pan_sharp.py:130-140 and
orthority/ortho.py:166: the pixel coordinates of the four corners, and the window between their smallest and largest
columns and rows.  `WindowError` for bounds that run against the transform. -/
def fromBounds (t : Affine K) (b : Bnds K) : Res (RWin K) :=
  if t.a = 0 ∨ t.e = 0 then .error .zeroDivisionError
  else if (b.right - b.left) / t.a < 0 ∨ (b.bottom - b.top) / t.e < 0 then .error .windowError
  else if t.det = 0 then .error .rasterioError
  else
    let p1 := t.inv.apply b.left b.top
    let p2 := t.inv.apply b.right b.top
    let p3 := t.inv.apply b.right b.bottom
    let p4 := t.inv.apply b.left b.bottom
    let c0 := min4 p1.1 p2.1 p3.1 p4.1
    let c1 := max4 p1.1 p2.1 p3.1 p4.1
    let r0 := min4 p1.2 p2.2 p3.2 p4.2
    let r1 := max4 p1.2 p2.2 p3.2 p4.2
    .ok ⟨c0, r0, max (c1 - c0) 0, max (r1 - r0) 0⟩

/-- `Window.intersection` of rasterio (orthority/pan_sharp.py:134, 140, orthority/ortho.py:168, 190):
`WindowError` unless the windows share an area. -/
def RWin.inter (a b : RWin K) : Res (RWin K) :=
  let c0 := max a.colOff b.colOff
  let c1 := min (a.colOff + a.width) (b.colOff + b.width)
  let r0 := max a.rowOff b.rowOff
  let r1 := min (a.rowOff + a.height) (b.rowOff + b.height)
  if c0 ≥ c1 ∨ r0 ≥ r1 then .error .windowError else .ok ⟨c0, r0, c1 - c0, r1 - r0⟩

/-- `DatasetReader.bounds` of rasterio. -/
def dsBounds (t : Affine K) (w h : K) : Bnds K :=
  if t.b = 0 ∧ t.d = 0 then ⟨t.c, t.f + t.e * h, t.c + t.a * w, t.f⟩
  else
    let p1 := t.apply 0 0
    let p2 := t.apply w 0
    let p3 := t.apply w h
    let p4 := t.apply 0 h
    ⟨min4 p1.1 p2.1 p3.1 p4.1, min4 p1.2 p2.2 p3.2 p4.2, max4 p1.1 p2.1 p3.1 p4.1, max4 p1.2 p2.2 p3.2 p4.2⟩

/-! ## Specification notions -/

/-- The world point lies in the bounds. -/
def Bnds.Has (b : Bnds K) (x y : K) : Prop := b.left ≤ x ∧ x ≤ b.right ∧ b.bottom ≤ y ∧ y ≤ b.top

/-- The pixel location lies in the window. -/
def RWin.Has (w : RWin K) (u v : K) : Prop :=
  w.colOff ≤ u ∧ u ≤ w.colOff + w.width ∧ w.rowOff ≤ v ∧ v ≤ w.rowOff + w.height

/-- The pixel location lies in the window. -/
def IWin.Has (w : IWin) (u v : K) : Prop :=
  (w.colOff : K) ≤ u ∧ u ≤ (w.colOff + w.width : ℤ) ∧ (w.rowOff : K) ≤ v ∧ v ≤ (w.rowOff + w.height : ℤ)

/-- Usual orientation: columns run east, rows run south, no rotation. -/
structure NorthUp (t : Affine K) : Prop where
  a : 0 < t.a
  b : t.b = 0
  d : t.d = 0
  e : t.e < 0

/-! ## Lemmas -/

theorem linear_box {α γ l r x : K} (hx : l ≤ x ∧ x ≤ r) :
    min (α * l + γ) (α * r + γ) ≤ α * x + γ ∧ α * x + γ ≤ max (α * l + γ) (α * r + γ) := by
  rcases le_total 0 α with h | h
  · have h1 := mul_le_mul_of_nonneg_left hx.1 h
    have h2 := mul_le_mul_of_nonneg_left hx.2 h
    exact ⟨min_le_iff.2 (.inl (by linarith)), le_max_iff.2 (.inr (by linarith))⟩
  · have h1 := mul_le_mul_of_nonpos_left hx.1 h
    have h2 := mul_le_mul_of_nonpos_left hx.2 h
    exact ⟨min_le_iff.2 (.inr (by linarith)), le_max_iff.2 (.inl (by linarith))⟩

theorem affine_box {α β γ l r b t x y : K} (hx : l ≤ x ∧ x ≤ r) (hy : b ≤ y ∧ y ≤ t) :
    min4 (α * l + β * t + γ) (α * r + β * t + γ) (α * r + β * b + γ) (α * l + β * b + γ) ≤ α * x + β * y + γ ∧
    α * x + β * y + γ ≤ max4 (α * l + β * t + γ) (α * r + β * t + γ) (α * r + β * b + γ) (α * l + β * b + γ) := by
  have hX := linear_box (α := α) (γ := 0) hx
  have hY := linear_box (α := β) (γ := 0) hy
  simp only [add_zero] at hX hY
  unfold min4 max4
  simp only [min_le_iff, le_max_iff] at hX hY ⊢
  constructor
  · rcases hX.1 with h1 | h1 <;> rcases hY.1 with h2 | h2
    · exact .inr (.inr (by linarith))
    · exact .inl (.inl (by linarith))
    · exact .inr (.inl (by linarith))
    · exact .inl (.inr (by linarith))
  · rcases hX.2 with h1 | h1 <;> rcases hY.2 with h2 | h2
    · exact .inr (.inr (by linarith))
    · exact .inl (.inl (by linarith))
    · exact .inr (.inl (by linarith))
    · exact .inl (.inr (by linarith))

/-- A window made from bounds contains the pixel location of each point in the bounds, for every transform. -/
theorem fromBounds_has {t : Affine K} {b : Bnds K} {w : RWin K} (h : fromBounds t b = .ok w) {u v : K}
    (hb : b.Has (t.apply u v).1 (t.apply u v).2) : w.Has u v := by
  unfold fromBounds at h
  split_ifs at h with h1 h2 h3
  simp only [Except.ok.injEq] at h
  subst h
  have hi := t.inv_apply_apply h3 u v
  set x := (t.apply u v).1
  set y := (t.apply u v).2
  obtain ⟨a1, a2, a3, a4⟩ := hb
  have e1 : (t.inv.apply x y).1 = u := by rw [hi]
  have e2 : (t.inv.apply x y).2 = v := by rw [hi]
  have g1 := affine_box (α := t.inv.a) (β := t.inv.b) (γ := t.inv.c) ⟨a1, a2⟩ ⟨a3, a4⟩
  have g2 := affine_box (α := t.inv.d) (β := t.inv.e) (γ := t.inv.f) ⟨a1, a2⟩ ⟨a3, a4⟩
  simp only [Affine.apply] at e1 e2
  rw [e1] at g1
  rw [e2] at g2
  refine ⟨g1.1, ?_, g2.1, ?_⟩
  · refine g1.2.trans ?_
    have := le_max_left (max4 (t.inv.apply b.left b.top).1 (t.inv.apply b.right b.top).1
      (t.inv.apply b.right b.bottom).1 (t.inv.apply b.left b.bottom).1 - min4 (t.inv.apply b.left b.top).1
      (t.inv.apply b.right b.top).1 (t.inv.apply b.right b.bottom).1 (t.inv.apply b.left b.bottom).1) 0
    simp only [Affine.apply] at this ⊢
    linarith
  · refine g2.2.trans ?_
    have := le_max_left (max4 (t.inv.apply b.left b.top).2 (t.inv.apply b.right b.top).2
      (t.inv.apply b.right b.bottom).2 (t.inv.apply b.left b.bottom).2 - min4 (t.inv.apply b.left b.top).2
      (t.inv.apply b.right b.top).2 (t.inv.apply b.right b.bottom).2 (t.inv.apply b.left b.bottom).2) 0
    simp only [Affine.apply] at this ⊢
    linarith

theorem NorthUp.det_ne {t : Affine K} (h : NorthUp t) : t.det ≠ 0 := by
  unfold Affine.det
  rw [h.b]
  have := mul_neg_of_pos_of_neg h.a h.e
  intro h'
  linarith

theorem NorthUp.inv_apply {t : Affine K} (h : NorthUp t) (x y : K) :
    t.inv.apply x y = ((x - t.c) / t.a, (y - t.f) / t.e) := by
  have h1 := h.a.ne'
  have h2 := h.e.ne
  unfold Affine.apply Affine.inv Affine.det
  rw [h.b, h.d]
  simp only [Prod.mk.injEq]
  constructor <;> field_simp <;> ring

/-- For a north-up transform the window is that of the bounds. -/
theorem fromBounds_northUp {t : Affine K} (h : NorthUp t) {b : Bnds K} (h1 : b.left ≤ b.right)
    (h2 : b.bottom ≤ b.top) :
    fromBounds t b = .ok ⟨(b.left - t.c) / t.a, (b.top - t.f) / t.e, (b.right - b.left) / t.a,
      (b.bottom - b.top) / t.e⟩ := by
  have ha := h.a
  have he := h.e
  have g1 : 0 ≤ (b.right - b.left) / t.a := div_nonneg (by linarith) ha.le
  have g2 : 0 ≤ (b.bottom - b.top) / t.e := div_nonneg_of_nonpos (by linarith) he.le
  unfold fromBounds
  rw [if_neg (by rintro (h | h) <;> linarith), if_neg (by rintro (h | h) <;> linarith), if_neg h.det_ne]
  simp only [h.inv_apply]
  have e1 : (b.left - t.c) / t.a ≤ (b.right - t.c) / t.a := by
    rw [div_le_div_iff_of_pos_right ha]; linarith
  have e2 : (b.top - t.f) / t.e ≤ (b.bottom - t.f) / t.e := by
    rw [div_le_div_right_of_neg he]; linarith
  have m1 : min4 ((b.left - t.c) / t.a) ((b.right - t.c) / t.a) ((b.right - t.c) / t.a) ((b.left - t.c) / t.a) =
      (b.left - t.c) / t.a := by simp [min4, e1]
  have m2 : max4 ((b.left - t.c) / t.a) ((b.right - t.c) / t.a) ((b.right - t.c) / t.a) ((b.left - t.c) / t.a) =
      (b.right - t.c) / t.a := by simp [max4, e1]
  have m3 : min4 ((b.top - t.f) / t.e) ((b.top - t.f) / t.e) ((b.bottom - t.f) / t.e) ((b.bottom - t.f) / t.e) =
      (b.top - t.f) / t.e := by simp [min4, e2]
  have m4 : max4 ((b.top - t.f) / t.e) ((b.top - t.f) / t.e) ((b.bottom - t.f) / t.e) ((b.bottom - t.f) / t.e) =
      (b.bottom - t.f) / t.e := by simp [max4, e2]
  rw [m1, m2, m3, m4]
  have q1 : (b.right - t.c) / t.a - (b.left - t.c) / t.a = (b.right - b.left) / t.a := by ring
  have q2 : (b.bottom - t.f) / t.e - (b.top - t.f) / t.e = (b.bottom - b.top) / t.e := by ring
  rw [q1, q2, max_eq_left g1, max_eq_left g2]

theorem inter_ok {a b w : RWin K} (h : a.inter b = .ok w) :
    (∀ u v, w.Has u v ↔ a.Has u v ∧ b.Has u v) ∧ 0 < w.width ∧ 0 < w.height := by
  unfold RWin.inter at h
  simp only at h
  split_ifs at h with h1
  simp only [Except.ok.injEq] at h
  subst h
  push Not at h1
  refine ⟨fun u v => ?_, by simpa using h1.1, by simpa using h1.2⟩
  simp only [RWin.Has, add_sub_cancel, max_le_iff, le_min_iff]
  tauto

theorem expand_has (w : RWin K) {u v : K} (h : w.Has u v) : (expandWindowToGrid w (0, 0)).Has u v := by
  have hc := (C09_expand_least w (0, 0)).1
  have h1 := hc.left
  have h2 := hc.right
  have h3 := hc.top
  have h4 := hc.bottom
  simp only [Int.cast_zero, sub_zero, add_zero] at h1 h2 h3 h4
  exact ⟨h1.trans h.1, h.2.1.trans h2, h3.trans h.2.2.1, h.2.2.2.trans h4⟩

/-- An expanded window is inside every whole pixel window that has all its points. -/
theorem expand_inside (w : RWin K) (hw : 0 ≤ w.width) (hh : 0 ≤ w.height) (iw : IWin)
    (h : ∀ u v : K, w.Has u v → iw.Has u v) : (expandWindowToGrid w (0, 0)).Inside iw := by
  refine (C09_expand_least w (0, 0)).2 iw ?_
  have p1 := h w.colOff w.rowOff ⟨le_rfl, by linarith, le_rfl, by linarith⟩
  have p2 := h (w.colOff + w.width) (w.rowOff + w.height) ⟨by linarith, le_rfl, by linarith, le_rfl⟩
  exact ⟨by simpa using p1.1, by simpa using p2.2.1, by simpa using p1.2.2.1, by simpa using p2.2.2.2⟩

end Verif.Common
