import Mathlib.Algebra.Field.Defs
import Mathlib.Tactic.Ring
import Mathlib.Tactic.FieldSimp

/-!
# Affine transforms (the `affine` package, as used through rasterio)
-/

set_option autoImplicit false

namespace Verif

/-- `rio.Affine(a, b, c, d, e, f)`: maps `(x, y)` to `(a x + b y + c, d x + e y + f)`.  `xoff` and
`yoff` are `c` and `f`.  Library type used throughout orthority/ortho.py and camera.py. -/
@[ext]
structure Affine (K : Type) where
  a : K
  b : K
  c : K
  d : K
  e : K
  f : K
  deriving DecidableEq, Repr

namespace Affine
variable {K : Type} [Field K]

/-- `transform * (x, y)` of the `affine` package. -/
def apply (t : Affine K) (x y : K) : K × K := (t.a * x + t.b * y + t.c, t.d * x + t.e * y + t.f)

/-- `s * t` of the `affine` package: apply `t`, then `s`. -/
def mul (s t : Affine K) : Affine K where
  a := s.a * t.a + s.b * t.d
  b := s.a * t.b + s.b * t.e
  c := s.a * t.c + s.b * t.f + s.c
  d := s.d * t.a + s.e * t.d
  e := s.d * t.b + s.e * t.e
  f := s.d * t.c + s.e * t.f + s.f

/-- `Affine.translation(x, y)`. -/
def translation (x y : K) : Affine K := ⟨1, 0, x, 0, 1, y⟩

/-- `Affine.scale(x, y)`. -/
def scale (x y : K) : Affine K := ⟨x, 0, 0, 0, y, 0⟩

/-- Determinant of the linear part. -/
def det (t : Affine K) : K := t.a * t.e - t.b * t.d

/-- `~t` of the `affine` package.  It raises `TransformNotInvertibleError` for determinant zero;
theorems that use this definition assume the determinant is not zero. -/
def inv (t : Affine K) : Affine K where
  a := t.e / t.det
  b := -t.b / t.det
  c := (t.b * t.f - t.c * t.e) / t.det
  d := -t.d / t.det
  e := t.a / t.det
  f := (t.c * t.d - t.a * t.f) / t.det

/-- `rasterio.windows.transform(window, transform)` (rasterio/windows.py): transform of a window with
the given offsets, `Affine.translation(x - t.c, y - t.f) * t` with `(x, y) = t * (col_off, row_off)`. -/
def window (t : Affine K) (colOff rowOff : K) : Affine K :=
  (translation ((t.apply colOff rowOff).1 - t.c) ((t.apply colOff rowOff).2 - t.f)).mul t

theorem apply_mul (s t : Affine K) (x y : K) :
    (s.mul t).apply x y = s.apply (t.apply x y).1 (t.apply x y).2 := by
  simp only [apply, mul, Prod.mk.injEq]
  constructor <;> ring

theorem apply_translation (x y u v : K) : (translation x y).apply u v = (u + x, v + y) := by
  simp only [apply, translation, Prod.mk.injEq]
  constructor <;> ring

theorem inv_apply_apply (t : Affine K) (h : t.det ≠ 0) (x y : K) :
    t.inv.apply (t.apply x y).1 (t.apply x y).2 = (x, y) := by
  have h' : t.a * t.e - t.b * t.d ≠ 0 := h
  simp only [apply, inv, det, Prod.mk.injEq]
  generalize hD : t.a * t.e - t.b * t.d = D at *
  constructor <;> field_simp <;> rw [← hD] <;> ring

theorem apply_inv_apply (t : Affine K) (h : t.det ≠ 0) (x y : K) :
    t.apply (t.inv.apply x y).1 (t.inv.apply x y).2 = (x, y) := by
  have h' : t.a * t.e - t.b * t.d ≠ 0 := h
  simp only [apply, inv, det, Prod.mk.injEq]
  generalize hD : t.a * t.e - t.b * t.d = D at *
  constructor <;> field_simp <;> rw [← hD] <;> ring

theorem window_apply (t : Affine K) (u v x y : K) :
    (t.window u v).apply x y = t.apply (x + u) (y + v) := by
  simp only [apply, window, mul, translation, Prod.mk.injEq]
  constructor <;> ring

end Affine
end Verif
