import Verif.Frame.Boundary

/-!
# Undistorted images (C43, C44, C61)
-/

set_option autoImplicit false

namespace Verif.Frame

open Matrix Real
open Res (ok_bind error_bind)

noncomputable section

/-! ## The undistorted intrinsic matrix -/

/-- Point of the 9 by 9 grid on the image, orthority/camera.py:755-759. -/
def gridPt (im : ℕ × ℕ) (a b : Fin 9) : ℝ × ℝ :=
  ((a : ℝ) * ((im.1 : ℝ) - 1) / 8, (b : ℝ) * ((im.2 : ℝ) - 1) / 8)

/-- x coordinate of the ray of a grid point, orthority/camera.py:760. -/
def gridX (im : ℕ × ℕ) (f : ℝ × ℝ → V3) (a b : Fin 9) : ℝ := f (gridPt im a b) 0

/-- y coordinate of the ray of a grid point, orthority/camera.py:760. -/
def gridY (im : ℕ × ℕ) (f : ℝ × ℝ → V3) (a b : Fin 9) : ℝ := f (gridPt im a b) 1

/-- Smallest value of a function on the grid. -/
def gridMin (g : Fin 9 → Fin 9 → ℝ) : ℝ := Finset.univ.inf' ⟨(0, 0), Finset.mem_univ _⟩ fun p : Fin 9 × Fin 9 => g p.1 p.2

/-- Largest value of a function on the grid. -/
def gridMax (g : Fin 9 → Fin 9 → ℝ) : ℝ := Finset.univ.sup' ⟨(0, 0), Finset.mem_univ _⟩ fun p : Fin 9 × Fin 9 => g p.1 p.2

/-- Smallest value on one side of the grid. -/
def sideMin (g : Fin 9 → ℝ) : ℝ := Finset.univ.inf' ⟨0, Finset.mem_univ _⟩ g

/-- Largest value on one side of the grid. -/
def sideMax (g : Fin 9 → ℝ) : ℝ := Finset.univ.sup' ⟨0, Finset.mem_univ _⟩ g

/-- A rectangle, by offset and size. -/
structure Rect where
  off : ℝ × ℝ
  size : ℝ × ℝ

/-- Outer rectangle, orthority/camera.py:761. -/
def outerRect (im : ℕ × ℕ) (f : ℝ × ℝ → V3) : Rect where
  off := (gridMin (gridX im f), gridMin (gridY im f))
  size := (gridMax (gridX im f) - gridMin (gridX im f), gridMax (gridY im f) - gridMin (gridY im f))

/-- Inner rectangle, orthority/camera.py:762-764. -/
def innerRect (im : ℕ × ℕ) (f : ℝ × ℝ → V3) : Rect :=
  let ul := (sideMax fun b => gridX im f 0 b, sideMax fun a => gridY im f a 0)
  let br := (sideMin fun b => gridX im f 8 b, sideMin fun a => gridY im f a 8)
  { off := ul, size := (br.1 - ul.1, br.2 - ul.2) }

/-- `np.clip(alpha, 0, 1)`. -/
def clip01 (a : ℝ) : ℝ := min (max a 0) 1

/-- orthority/camera.py:736-781 `_get_undistort_intrinsic`; `f` is `_pixel_to_camera`. -/
def undistIntrinsic (im : ℕ × ℕ) (f : ℝ × ℝ → V3) (alpha : ℝ) : M3 :=
  let al := clip01 alpha
  let inner := innerRect im f
  let outer := outerRect im f
  let w : ℝ := (im.1 : ℝ) - 1
  let h : ℝ := (im.2 : ℝ) - 1
  let f0 := (w / inner.size.1, h / inner.size.2)
  let c0 := (-f0.1 * inner.off.1, -f0.2 * inner.off.2)
  let f1 := (w / outer.size.1, h / outer.size.2)
  let c1 := (-f1.1 * outer.off.1, -f1.2 * outer.off.2)
  kMat (f0.1 * (1 - al) + f1.1 * al, f0.2 * (1 - al) + f1.2 * al) (c0.1 * (1 - al) + c1.1 * al, c0.2 * (1 - al) + c1.2 * al)

theorem le_gridMax (g : Fin 9 → Fin 9 → ℝ) (a b : Fin 9) : g a b ≤ gridMax g :=
  Finset.le_sup' (fun p : Fin 9 × Fin 9 => g p.1 p.2) (Finset.mem_univ (a, b))

theorem gridMin_le (g : Fin 9 → Fin 9 → ℝ) (a b : Fin 9) : gridMin g ≤ g a b :=
  Finset.inf'_le (fun p : Fin 9 × Fin 9 => g p.1 p.2) (Finset.mem_univ (a, b))

theorem le_sideMax (g : Fin 9 → ℝ) (a : Fin 9) : g a ≤ sideMax g := Finset.le_sup' g (Finset.mem_univ a)

theorem sideMin_le (g : Fin 9 → ℝ) (a : Fin 9) : sideMin g ≤ g a := Finset.inf'_le g (Finset.mem_univ a)

/-! ## C44 -/

/-- C44: alpha is clipped. -/
theorem C44_clip (im : ℕ × ℕ) (f : ℝ × ℝ → V3) (alpha : ℝ) :
    (alpha ≤ 0 → undistIntrinsic im f alpha = undistIntrinsic im f 0) ∧
    (1 ≤ alpha → undistIntrinsic im f alpha = undistIntrinsic im f 1) := by
  constructor
  · intro h
    have : clip01 alpha = clip01 0 := by simp [clip01, h]
    simp only [undistIntrinsic, this]
  · intro h
    have : clip01 alpha = clip01 1 := by
      have h0 : (0 : ℝ) ≤ alpha := by linarith
      simp [clip01, h, h0]
    simp only [undistIntrinsic, this]

theorem undist_one (im : ℕ × ℕ) (f : ℝ × ℝ → V3) (x : V3) (hx : x 2 = 1) :
    dotK (undistIntrinsic im f 1) x =
      (((im.1 : ℝ) - 1) * ((x 0 - (outerRect im f).off.1) / (outerRect im f).size.1),
       ((im.2 : ℝ) - 1) * ((x 1 - (outerRect im f).off.2) / (outerRect im f).size.2)) := by
  have : clip01 1 = 1 := by simp [clip01]
  simp only [undistIntrinsic, this, dotK_kMat, hx]
  apply Prod.ext <;> simp <;> ring

theorem undist_zero (im : ℕ × ℕ) (f : ℝ × ℝ → V3) (x : V3) (hx : x 2 = 1) :
    dotK (undistIntrinsic im f 0) x =
      (((im.1 : ℝ) - 1) * ((x 0 - (innerRect im f).off.1) / (innerRect im f).size.1),
       ((im.2 : ℝ) - 1) * ((x 1 - (innerRect im f).off.2) / (innerRect im f).size.2)) := by
  have : clip01 0 = 0 := by simp [clip01]
  simp only [undistIntrinsic, this, dotK_kMat, hx]
  apply Prod.ext <;> simp <;> ring

/-- In the image, from the centre of the first pixel to the centre of the last. -/
def InIm (im : ℕ × ℕ) (p : ℝ × ℝ) : Prop := 0 ≤ p.1 ∧ p.1 ≤ (im.1 : ℝ) - 1 ∧ 0 ≤ p.2 ∧ p.2 ≤ (im.2 : ℝ) - 1

/-- C44: with alpha of one, all source pixels of the grid lie in the undistorted image. -/
theorem C44_alpha_one (im : ℕ × ℕ) (hw : 0 < im.1) (hh : 0 < im.2) (f : ℝ × ℝ → V3) (hf : ∀ p, f p 2 = 1) (alpha : ℝ)
    (ha : 1 ≤ alpha) (a b : Fin 9) : InIm im (dotK (undistIntrinsic im f alpha) (f (gridPt im a b))) := by
  have hw' : (0 : ℝ) ≤ (im.1 : ℝ) - 1 := by
    have : (1 : ℝ) ≤ im.1 := by exact_mod_cast hw
    linarith
  have hh' : (0 : ℝ) ≤ (im.2 : ℝ) - 1 := by
    have : (1 : ℝ) ≤ im.2 := by exact_mod_cast hh
    linarith
  have key : ∀ g : Fin 9 → Fin 9 → ℝ, 0 ≤ (g a b - gridMin g) / (gridMax g - gridMin g) ∧
      (g a b - gridMin g) / (gridMax g - gridMin g) ≤ 1 := by
    intro g
    have h1 := gridMin_le g a b
    have h2 := le_gridMax g a b
    exact ⟨div_nonneg (by linarith) (by linarith), div_le_one_of_le₀ (by linarith) (by linarith)⟩
  rw [(C44_clip im f alpha).2 ha, undist_one im f _ (hf _)]
  obtain ⟨x0, x1⟩ := key (gridX im f)
  obtain ⟨y0, y1⟩ := key (gridY im f)
  exact ⟨mul_nonneg hw' x0, mul_le_of_le_one_right hw' x1, mul_nonneg hh' y0, mul_le_of_le_one_right hh' y1⟩

/-- C44: with alpha of zero, the rays of all pixels of the undistorted image lie between those of the source pixels on the
left and right, and upper and lower, sides of the grid. -/
theorem C44_alpha_zero (im : ℕ × ℕ) (hw : 1 < im.1) (hh : 1 < im.2) (f : ℝ × ℝ → V3) (alpha : ℝ) (ha : alpha ≤ 0)
    (hx : 0 < (innerRect im f).size.1) (hy : 0 < (innerRect im f).size.2) (x : V3) (hx2 : x 2 = 1)
    (hin : InIm im (dotK (undistIntrinsic im f alpha) x)) (k : Fin 9) :
    gridX im f 0 k ≤ x 0 ∧ x 0 ≤ gridX im f 8 k ∧ gridY im f k 0 ≤ x 1 ∧ x 1 ≤ gridY im f k 8 := by
  have hw' : (0 : ℝ) < (im.1 : ℝ) - 1 := by
    have : (1 : ℝ) < im.1 := by exact_mod_cast hw
    linarith
  have hh' : (0 : ℝ) < (im.2 : ℝ) - 1 := by
    have : (1 : ℝ) < im.2 := by exact_mod_cast hh
    linarith
  rw [(C44_clip im f alpha).1 ha, undist_zero im f x hx2] at hin
  obtain ⟨h1, h2, h3, h4⟩ := hin
  simp only at h1 h2 h3 h4
  have h1' := nonneg_of_mul_nonneg_right h1 hw'
  have h2' := (mul_le_iff_le_one_right hw').1 h2
  have h3' := nonneg_of_mul_nonneg_right h3 hh'
  have h4' := (mul_le_iff_le_one_right hh').1 h4
  rw [div_le_one hx] at h2'
  rw [div_le_one hy] at h4'
  have h1'' : 0 ≤ x 0 - (innerRect im f).off.1 := by
    have := mul_nonneg h1' hx.le
    rwa [div_mul_cancel₀ _ hx.ne'] at this
  have h3'' : 0 ≤ x 1 - (innerRect im f).off.2 := by
    have := mul_nonneg h3' hy.le
    rwa [div_mul_cancel₀ _ hy.ne'] at this
  have a1 := le_sideMax (fun b => gridX im f 0 b) k
  have a2 := sideMin_le (fun b => gridX im f 8 b) k
  have a3 := le_sideMax (fun a => gridY im f a 0) k
  have a4 := sideMin_le (fun a => gridY im f a 8) k
  simp only [innerRect] at h1'' h2' h3'' h4'
  refine ⟨?_, ?_, ?_, ?_⟩ <;> linarith

/-- C44: for a camera without distortion the matrix is the intrinsic matrix, whatever alpha is. -/
theorem C44_no_distortion (im : ℕ × ℕ) (hw : 1 < im.1) (hh : 1 < im.2) (s c : ℝ × ℝ) (hs : 0 < s.1 ∧ 0 < s.2) (alpha : ℝ) :
    undistIntrinsic im (fun p => (kMat s c)⁻¹ *ᵥ homog p) alpha = kMat s c := by
  have hw' : (0 : ℝ) < (im.1 : ℝ) - 1 := by
    have : (1 : ℝ) < im.1 := by exact_mod_cast hw
    linarith
  have hh' : (0 : ℝ) < (im.2 : ℝ) - 1 := by
    have : (1 : ℝ) < im.2 := by exact_mod_cast hh
    linarith
  have hd : (kMat s c).det ≠ 0 := by rw [kMat_det]; exact mul_ne_zero hs.1.ne' hs.2.ne'
  obtain ⟨f, hf⟩ : ∃ f : ℝ × ℝ → V3, f = fun p => (kMat s c)⁻¹ *ᵥ homog p := ⟨_, rfl⟩
  rw [← hf]
  have hX : ∀ a b, gridX im f a b = ((a : ℝ) * ((im.1 : ℝ) - 1) / 8 - c.1) / s.1 := by
    intro a b; rw [gridX, hf]; simp only [kMat_ray s c hd]; rfl
  have hY : ∀ a b, gridY im f a b = ((b : ℝ) * ((im.2 : ℝ) - 1) / 8 - c.2) / s.2 := by
    intro a b; rw [gridY, hf]; simp only [kMat_ray s c hd]; rfl
  have hlin : ∀ (w t u : ℝ) (k : Fin 9), 0 < w → 0 < t → (-u) / t ≤ ((k : ℝ) * w / 8 - u) / t ∧
      ((k : ℝ) * w / 8 - u) / t ≤ (w - u) / t := by
    intro w t u k hw ht
    have hk0 : (0 : ℝ) ≤ (k : ℕ) := Nat.cast_nonneg _
    have hk8 : ((k : ℕ) : ℝ) ≤ 8 := by exact_mod_cast (by omega : (k : ℕ) ≤ 8)
    constructor <;> apply div_le_div_of_nonneg_right _ ht.le <;> nlinarith
  have z0 : ((0 : Fin 9) : ℕ) = 0 := rfl
  have z8 : ((8 : Fin 9) : ℕ) = 8 := rfl
  have sc : ∀ t : ℝ, sideMax (fun _ => t) = t := fun t =>
    le_antisymm (Finset.sup'_le _ _ fun _ _ => le_refl t) (le_sideMax (fun _ => t) 0)
  have sc' : ∀ t : ℝ, sideMin (fun _ => t) = t := fun t =>
    le_antisymm (sideMin_le (fun _ => t) 0) (Finset.le_inf' _ _ fun _ _ => le_refl t)
  have e1 : (innerRect im f).off = (-c.1 / s.1, -c.2 / s.2) := by
    simp [innerRect, hX, hY, sc]
  have e2 : (innerRect im f).size = (((im.1 : ℝ) - 1) / s.1, ((im.2 : ℝ) - 1) / s.2) := by
    simp only [innerRect, hX, hY, sc, sc', z0, z8]
    apply Prod.ext <;> simp <;> field_simp <;> ring
  have m1 : gridMin (gridX im f) = -c.1 / s.1 := by
    apply le_antisymm
    · have := gridMin_le (gridX im f) 0 0
      rw [hX] at this
      simpa using this
    · refine Finset.le_inf' _ _ fun p _ => ?_
      rw [hX]
      exact (hlin _ _ _ _ hw' hs.1).1
  have m2 : gridMin (gridY im f) = -c.2 / s.2 := by
    apply le_antisymm
    · have := gridMin_le (gridY im f) 0 0
      rw [hY] at this
      simpa using this
    · refine Finset.le_inf' _ _ fun p _ => ?_
      rw [hY]
      exact (hlin _ _ _ _ hh' hs.2).1
  have m3 : gridMax (gridX im f) = ((im.1 : ℝ) - 1 - c.1) / s.1 := by
    apply le_antisymm
    · refine Finset.sup'_le _ _ fun p _ => ?_
      rw [hX]
      exact (hlin _ _ _ _ hw' hs.1).2
    · have := le_gridMax (gridX im f) 8 8
      rw [hX, z8] at this
      refine le_trans (le_of_eq ?_) this
      push_cast; ring
  have m4 : gridMax (gridY im f) = ((im.2 : ℝ) - 1 - c.2) / s.2 := by
    apply le_antisymm
    · refine Finset.sup'_le _ _ fun p _ => ?_
      rw [hY]
      exact (hlin _ _ _ _ hh' hs.2).2
    · have := le_gridMax (gridY im f) 8 8
      rw [hY, z8] at this
      refine le_trans (le_of_eq ?_) this
      push_cast; ring
  have e3 : (outerRect im f).off = (-c.1 / s.1, -c.2 / s.2) := by simp [outerRect, m1, m2]
  have e4 : (outerRect im f).size = (((im.1 : ℝ) - 1) / s.1, ((im.2 : ℝ) - 1) / s.2) := by
    simp only [outerRect, m1, m2, m3, m4]
    apply Prod.ext <;> simp <;> field_simp <;> ring
  have h1 := hs.1.ne'
  have h2 := hs.2.ne'
  have q1 : ((im.1 : ℝ) - 1) / (((im.1 : ℝ) - 1) / s.1) = s.1 := by field_simp
  have q2 : ((im.2 : ℝ) - 1) / (((im.2 : ℝ) - 1) / s.2) = s.2 := by field_simp
  have q3 : -s.1 * (-c.1 / s.1) = c.1 := by field_simp
  have q4 : -s.2 * (-c.2 / s.2) = c.2 := by field_simp
  simp only [undistIntrinsic, e1, e2, e3, e4, q1, q2, q3, q4]
  congr 1 <;> apply Prod.ext <;> simp only <;> ring

/-- C44: the demonstration camera meets the assumptions of `C44_alpha_zero`. -/
example : 0 < (innerRect (4, 3) fun p => ![p.1, p.2, 1]).size.1 := by
  have sc : ∀ t : ℝ, sideMax (fun _ => t) = t := fun t =>
    le_antisymm (Finset.sup'_le _ _ fun _ _ => le_refl t) (le_sideMax (fun _ => t) 0)
  have sc' : ∀ t : ℝ, sideMin (fun _ => t) = t := fun t =>
    le_antisymm (sideMin_le (fun _ => t) 0) (Finset.le_inf' _ _ fun _ _ => le_refl t)
  simp only [innerRect, gridX, gridPt, Matrix.cons_val_zero, sc, sc']
  norm_num

/-! ## C43 -/

/-- What the class and interior parameters of a camera fix.  `intr` is `_get_undistort_intrinsic` and `mkMaps`
`_get_undistort_maps` (a function of the matrix). -/
structure UndEnv (Maps : Type) where
  isPinhole : Bool
  K : M3
  intr : ℝ → M3
  mkMaps : M3 → Maps

/-- The state of a camera that has to do with undistorting. -/
structure UndState (Maps : Type) where
  alpha : ℝ
  distort : Bool
  Kund : M3
  maps : Option Maps

namespace UndEnv

variable {Maps : Type} (e : UndEnv Maps)

/-- The constructors, orthority/camera.py:607-614, 1230 and 1446. -/
def init (alpha : ℝ) (distort : Bool) : UndState Maps :=
  { alpha := alpha, distort := distort, Kund := if e.isPinhole then e.K else e.intr alpha, maps := none }

open Classical in
/-- orthority/camera.py:645-650: the `alpha` setter. -/
def setAlpha (s : UndState Maps) (v : ℝ) : UndState Maps :=
  if e.isPinhole = false ∧ v ≠ s.alpha then { s with alpha := v, Kund := e.intr v, maps := none } else { s with alpha := v }

/-- orthority/camera.py:631-633: the `distort` setter. -/
def setDistort (s : UndState Maps) (v : Bool) : UndState Maps := { s with distort := v }

/-- orthority/camera.py:917 in `_undistort_im`: the maps used, and the state after.  A pinhole camera has no maps. -/
def undistort (s : UndState Maps) : UndState Maps × Option Maps :=
  if e.isPinhole then (s, none) else
  match s.maps with
  | some m => (s, some m)
  | none => ({ s with maps := some (e.mkMaps s.Kund) }, some (e.mkMaps s.Kund))

/-- orthority/camera.py:1051-1057 `read`: the maps used, none for a distorted image. -/
def read (s : UndState Maps) : UndState Maps × Option Maps := if s.distort then (s, none) else e.undistort s

/-- Calls on a camera. -/
inductive Op
  | setAlpha (v : ℝ)
  | setDistort (v : Bool)
  | read

/-- State after a call. -/
def step (s : UndState Maps) : Op → UndState Maps
  | .setAlpha v => e.setAlpha s v
  | .setDistort v => setDistort s v
  | .read => (e.read s).1

/-- State after a history of calls. -/
def run (s : UndState Maps) (ops : List Op) : UndState Maps := ops.foldl e.step s

/-- The matrix belongs to alpha, and the maps, if there are any, to the matrix. -/
def Inv (s : UndState Maps) : Prop :=
  s.Kund = (e.init s.alpha s.distort).Kund ∧ ∀ m, s.maps = some m → e.isPinhole = false ∧ m = e.mkMaps s.Kund

theorem inv_step (s : UndState Maps) (h : e.Inv s) (op : Op) : e.Inv (e.step s op) := by
  obtain ⟨h1, h2⟩ := h
  cases op with
  | setAlpha v =>
    simp only [step, setAlpha]
    split
    · rename_i hc
      exact ⟨by simp [init, hc.1], by simp⟩
    · rename_i hc
      refine ⟨?_, h2⟩
      simp only [init] at h1 ⊢
      rw [h1]
      cases hp : e.isPinhole with
      | true => rfl
      | false =>
        have hv : v = s.alpha := by
          by_contra hv
          exact hc ⟨hp, hv⟩
        rw [hv]
  | setDistort v => exact ⟨h1, h2⟩
  | read =>
    simp only [step, read]
    split
    · exact ⟨h1, h2⟩
    · simp only [undistort]
      split
      · exact ⟨h1, h2⟩
      · rename_i hp
        split
        · exact ⟨h1, h2⟩
        · refine ⟨h1, ?_⟩
          intro m hm
          simp only [Option.some.injEq] at hm
          exact ⟨by simpa using hp, hm.symm⟩

theorem inv_run (s : UndState Maps) (h : e.Inv s) (ops : List Op) : e.Inv (e.run s ops) := by
  induction ops generalizing s with
  | nil => exact h
  | cons op ops ih => exact ih _ (e.inv_step s h op)

theorem inv_init (alpha : ℝ) (distort : Bool) : e.Inv (e.init alpha distort) := ⟨rfl, by simp [init]⟩

/-- C43: after any history of alpha and distort changes and reads, the maps used to read are those that a camera constructed
with the current alpha and distort uses, and so is the matrix. -/
theorem C43_maps (alpha : ℝ) (distort : Bool) (ops : List Op) :
    let s := e.run (e.init alpha distort) ops
    (e.read s).2 = (e.read (e.init s.alpha s.distort)).2 ∧ s.Kund = (e.init s.alpha s.distort).Kund := by
  intro s
  obtain ⟨h1, h2⟩ : e.Inv s := e.inv_run _ (e.inv_init alpha distort) ops
  refine ⟨?_, h1⟩
  simp only [read]
  have hd : (e.init s.alpha s.distort).distort = s.distort := rfl
  rw [hd]
  cases hs : s.distort with
  | true => rfl
  | false =>
    simp only [Bool.false_eq_true, if_false, undistort]
    cases hp : e.isPinhole with
    | true => rfl
    | false =>
      rw [hs] at h1
      simp only [Bool.false_eq_true, if_false]
      have hm : (e.init s.alpha false).maps = none := rfl
      rw [hm]
      cases hsm : s.maps with
      | none => simp [h1]
      | some m => simp [(h2 m hsm).2, h1]

/-- The last alpha and distort given in a history. -/
def lastAlpha (alpha : ℝ) : List Op → ℝ
  | [] => alpha
  | .setAlpha v :: ops => lastAlpha v ops
  | _ :: ops => lastAlpha alpha ops

/-- C43: alpha is the last value given. -/
theorem C43_alpha (s : UndState Maps) (ops : List Op) : (e.run s ops).alpha = lastAlpha s.alpha ops := by
  induction ops generalizing s with
  | nil => rfl
  | cons op ops ih =>
    show (e.run (e.step s op) ops).alpha = _
    rw [ih]
    cases op with
    | setAlpha v =>
      simp only [lastAlpha, step, setAlpha]
      split <;> rfl
    | setDistort v => rfl
    | read =>
      simp only [lastAlpha, step, read, undistort]
      split
      · rfl
      · split
        · rfl
        · split <;> rfl

/-- C43: with maps that tell matrices apart, changing alpha between two reads changes the maps. -/
example : (({ isPinhole := false, K := 1, intr := fun a => a • 1, mkMaps := fun K => K 0 0 } : UndEnv ℝ).read
    (({ isPinhole := false, K := 1, intr := fun a => a • 1, mkMaps := fun K => K 0 0 } : UndEnv ℝ).run
      (({ isPinhole := false, K := 1, intr := fun a => a • 1, mkMaps := fun K => K 0 0 } : UndEnv ℝ).init 1 false)
      [.read, .setAlpha (1 / 2), .read])).2 = some (1 / 2) := by
  rw [(UndEnv.C43_maps _ 1 false _).1, UndEnv.C43_alpha]
  simp [lastAlpha, run, step, read, undistort, init, setAlpha]

end UndEnv

/-! ## C61: the undistorted and distorted camera models agree -/

namespace FrameCam

/-- orthority/camera.py:882-893 `_distort_pixel`, without clipping. -/
def distortPixel (c : FrameCam) (ji : ℝ × ℝ) : ℝ × ℝ := c.camToPix (c.basePixToCam ji)

/-- orthority/camera.py:895-906 `_undistort_pixel`, without clipping. -/
def undistortPixel (c : FrameCam) (ji : ℝ × ℝ) : ℝ × ℝ := c.baseCamToPix (c.pixToCam ji)

/-- `np.clip` to the image, orthority/camera.py:892 and 905. -/
def clipIm (im : ℕ × ℕ) (p : ℝ × ℝ) : ℝ × ℝ :=
  (min (max p.1 0) ((im.1 : ℝ) - 1), min (max p.2 0) ((im.2 : ℝ) - 1))

/-- orthority/camera.py:940-958 `FrameCamera.pixel_boundary`. -/
def boundary (c : FrameCam) (num : Option ℤ) : Res (List (ℝ × ℝ)) := do
  let ji ← pixelBoundary c.imSize num
  pure (if c.distort then ji else ji.map fun p => clipIm c.imSize (c.undistortPixel p))

end FrameCam

/-- C61: the pixel of a world point in the undistorted image, distorted, is its pixel in the original image. -/
theorem C61_distort (c : FrameCam) (s ctr : ℝ × ℝ) (hK : c.Kund = kMat s ctr) (hi : c.KundInv = (kMat s ctr)⁻¹)
    (hd : (kMat s ctr).det ≠ 0) (R : M3) (T X : V3) (hX : FrameCam.camCoords R T X 2 ≠ 0) :
    c.distortPixel ({ c with distort := false }.projectPt R T X) = { c with distort := true }.projectPt R T X := by
  have hu : FrameCam.unitDepth (FrameCam.camCoords R T X) 2 = 1 := div_self hX
  show c.camToPix (c.KundInv *ᵥ homog (dotK c.Kund (FrameCam.unitDepth (FrameCam.camCoords R T X)))) =
    c.camToPix (FrameCam.unitDepth (FrameCam.camCoords R T X))
  rw [hK, hi, ray_dotK s ctr hd _ hu]

/-- C61: the world points of a pixel are those of the undistorted pixel with the undistorted model. -/
theorem C61_undistort (c : FrameCam) (s ctr : ℝ × ℝ) (hK : c.Kund = kMat s ctr) (hi : c.KundInv = (kMat s ctr)⁻¹)
    (hd : (kMat s ctr).det ≠ 0) (hp : ∀ p, c.pixToCam p 2 = 1) (R : M3) (T : V3) (ji : ℝ × ℝ) (z : ℝ) :
    { c with distort := false }.pointAtZ R T (c.undistortPixel ji) z = { c with distort := true }.pointAtZ R T ji z := by
  have : ({ c with distort := false } : FrameCam).toCam (c.undistortPixel ji) = c.pixToCam ji := by
    show c.KundInv *ᵥ homog (dotK c.Kund (c.pixToCam ji)) = _
    rw [hK, hi, ray_dotK s ctr hd _ (hp ji)]
  simp only [FrameCam.pointAtZ, this]
  rfl

/-- C61: with exact undistortion, undistorting and distorting a pixel gives it back. -/
theorem C61_inverse (c : FrameCam) (s ctr : ℝ × ℝ) (hK : c.Kund = kMat s ctr) (hi : c.KundInv = (kMat s ctr)⁻¹)
    (hd : (kMat s ctr).det ≠ 0) (hp : ∀ p, c.pixToCam p 2 = 1) (hinv : ∀ p, c.camToPix (c.pixToCam p) = p) (ji : ℝ × ℝ) :
    c.distortPixel (c.undistortPixel ji) = ji := by
  show c.camToPix (c.KundInv *ᵥ homog (dotK c.Kund (c.pixToCam ji))) = ji
  rw [hK, hi, ray_dotK s ctr hd _ (hp ji), hinv]

/-- C61: the boundary of the valid area of an undistorted image lies in the image. -/
theorem C61_boundary (c : FrameCam) (hw : 0 < c.imSize.1) (hh : 0 < c.imSize.2) (num : Option ℤ) (l : List (ℝ × ℝ))
    (h : c.boundary num = .ok l) : ∀ p ∈ l, InIm c.imSize p := by
  have hw' : (0 : ℝ) ≤ (c.imSize.1 : ℝ) - 1 := by
    have : (1 : ℝ) ≤ c.imSize.1 := by exact_mod_cast hw
    linarith
  have hh' : (0 : ℝ) ≤ (c.imSize.2 : ℝ) - 1 := by
    have : (1 : ℝ) ≤ c.imSize.2 := by exact_mod_cast hh
    linarith
  unfold FrameCam.boundary at h
  cases hb : pixelBoundary (K := ℝ) c.imSize num with
  | error e => rw [hb] at h; cases h
  | ok ji =>
    rw [hb, ok_bind] at h
    injection h with h
    subst h
    intro p hp
    split at hp
    · have := (C42_on_border c.imSize hw hh num ji hb p hp).1
      exact ⟨this.1, this.2.1, this.2.2.1, this.2.2.2⟩
    · obtain ⟨q, -, rfl⟩ := List.mem_map.1 hp
      simp only [InIm, FrameCam.clipIm]
      exact ⟨le_min (le_max_right _ _) hw', min_le_right _ _, le_min (le_max_right _ _) hh', min_le_right _ _⟩

/-- C61: for the pinhole camera the boundary does not depend on `distort`. -/
theorem C61_pinhole_boundary {c : FrameCam} {R : M3} {T : V3} (h : IsPinhole c R T) (hw : 0 < c.imSize.1) (hh : 0 < c.imSize.2)
    (num : Option ℤ) (l : List (ℝ × ℝ)) (hl : pixelBoundary c.imSize num = .ok l) : c.boundary num = .ok l := by
  unfold FrameCam.boundary
  rw [hl, ok_bind]
  show Except.ok _ = _
  congr 1
  split
  · rfl
  · rename_i hdis
    have hdis : c.distort = false := by simpa using hdis
    obtain ⟨s, ctr, hd, -, hp, hcam, hpc, -, -⟩ := h.spec
    conv_rhs => rw [← List.map_id l]
    apply List.map_congr_left
    intro p hpl
    have hu : c.undistortPixel p = p := by
      have h1 : c.baseCamToPix = dotK (kMat s ctr) := by
        have : c.toPix = c.baseCamToPix := by funext x; simp [FrameCam.toPix, hdis]
        rw [← this, hp]
      rw [FrameCam.undistortPixel, h1, hpc]
      exact dotK_ray s ctr hd p
    rw [hu]
    have hb := (C42_on_border c.imSize hw hh num l hl p hpl).1
    apply Prod.ext
    · simp only [FrameCam.clipIm, id]
      rw [max_eq_left hb.1, min_eq_left hb.2.1]
    · simp only [FrameCam.clipIm, id]
      rw [max_eq_left hb.2.2.1, min_eq_left hb.2.2.2]

end

end Verif.Frame
