import Verif.Frame.Undistort

/-!
# What undistorted images use (C43, C44, C61)

Statements about the undistorted model in terms of the values that the user gave.
-/

set_option autoImplicit false

namespace Verif.Frame

open Matrix Real
open Res (ok_bind error_bind)

noncomputable section

namespace UndEnv

variable {Maps : Type} (e : UndEnv Maps)

/-- The last distort given in a history. -/
def lastDistort (distort : Bool) : List Op → Bool
  | [] => distort
  | .setDistort v :: ops => lastDistort v ops
  | _ :: ops => lastDistort distort ops

/-- C43: distort is the last value given. -/
theorem C43_distort (s : UndState Maps) (ops : List Op) : (e.run s ops).distort = lastDistort s.distort ops := by
  induction ops generalizing s with
  | nil => rfl
  | cons op ops ih =>
    show (e.run (e.step s op) ops).distort = _
    rw [ih]
    cases op with
    | setAlpha v =>
      simp only [lastDistort, step, setAlpha]
      split <;> rfl
    | setDistort v => rfl
    | read =>
      simp only [lastDistort, step, read, undistort]
      split
      · rfl
      · split
        · rfl
        · split <;> rfl

/-- C43: after any history of changes and reads, an image is read without maps if distort was last set to true (or the camera
has no distortion), and else with the maps of the matrix for the alpha that was last given.  The matrix of the model without
distortion is that for the alpha that was last given. -/
theorem C43_used (alpha : ℝ) (distort : Bool) (ops : List Op) :
    (e.read (e.run (e.init alpha distort) ops)).2 =
      (if lastDistort distort ops = true ∨ e.isPinhole = true then none else some (e.mkMaps (e.intr (lastAlpha alpha ops)))) ∧
    (e.run (e.init alpha distort) ops).Kund = if e.isPinhole = true then e.K else e.intr (lastAlpha alpha ops) := by
  obtain ⟨h1, h2⟩ := e.C43_maps alpha distort ops
  have ha := e.C43_alpha (e.init alpha distort) ops
  have hd := e.C43_distort (e.init alpha distort) ops
  change _ = lastAlpha alpha ops at ha
  change _ = lastDistort distort ops at hd
  rw [ha, hd] at h1 h2
  constructor
  · rw [h1]
    simp only [read, undistort, init]
    cases lastDistort distort ops <;> cases e.isPinhole <;> simp
  · rw [h2]
    rfl

/-- C43: reading undistorted, changing alpha and reading again. -/
example : (({ isPinhole := false, K := 1, intr := fun a => a • 1, mkMaps := fun K => K 0 0 } : UndEnv ℝ).read
    (({ isPinhole := false, K := 1, intr := fun a => a • 1, mkMaps := fun K => K 0 0 } : UndEnv ℝ).run
      (({ isPinhole := false, K := 1, intr := fun a => a • 1, mkMaps := fun K => K 0 0 } : UndEnv ℝ).init 1 true)
      [.setDistort false, .read, .setAlpha (1 / 2)])).2 = some (1 / 2) := by
  rw [(C43_used _ 1 true _).1]
  simp [lastDistort, lastAlpha]

end UndEnv

/-! ## C44 -/

/-- C44: between alpha of zero and one, the matrix goes linearly from the one that crops to valid pixels to the one that
includes all source pixels. -/
theorem C44_between (im : ℕ × ℕ) (f : ℝ × ℝ → V3) (alpha : ℝ) (h0 : 0 ≤ alpha) (h1 : alpha ≤ 1) :
    undistIntrinsic im f alpha = (1 - alpha) • undistIntrinsic im f 0 + alpha • undistIntrinsic im f 1 := by
  have ha : clip01 alpha = alpha := by simp [clip01, h0, h1]
  have hz : clip01 0 = 0 := by simp [clip01]
  have ho : clip01 1 = 1 := by simp [clip01]
  simp only [undistIntrinsic, ha, hz, ho]
  ext i j
  fin_cases i <;> fin_cases j <;> simp [kMat] <;> ring

theorem gridPt_zero (im : ℕ × ℕ) (a b : Fin 9) :
    (a = 0 → (gridPt im a b).1 = 0) ∧ (a = 8 → (gridPt im a b).1 = (im.1 : ℝ) - 1) ∧
    (b = 0 → (gridPt im a b).2 = 0) ∧ (b = 8 → (gridPt im a b).2 = (im.2 : ℝ) - 1) := by
  refine ⟨?_, ?_, ?_, ?_⟩ <;> rintro rfl <;> simp [gridPt]

/-- C44: with alpha of one, the centres of the corner pixels, of the sides and of the image are in the undistorted image. -/
theorem C44_corners (im : ℕ × ℕ) (hw : 0 < im.1) (hh : 0 < im.2) (f : ℝ × ℝ → V3) (hf : ∀ p, f p 2 = 1) (alpha : ℝ)
    (ha : 1 ≤ alpha) (p : ℝ × ℝ) (hx : p.1 ∈ [0, ((im.1 : ℝ) - 1) / 2, (im.1 : ℝ) - 1])
    (hy : p.2 ∈ [0, ((im.2 : ℝ) - 1) / 2, (im.2 : ℝ) - 1]) : InIm im (dotK (undistIntrinsic im f alpha) (f p)) := by
  have z4 : ((4 : Fin 9) : ℕ) = 4 := rfl
  have z8 : ((8 : Fin 9) : ℕ) = 8 := rfl
  have key : ∀ (w x : ℝ), x ∈ [0, (w - 1) / 2, w - 1] → ∃ a : Fin 9, x = (a : ℝ) * (w - 1) / 8 := by
    intro w x hx
    simp only [List.mem_cons, List.not_mem_nil, or_false] at hx
    rcases hx with rfl | rfl | rfl
    · exact ⟨0, by simp⟩
    · exact ⟨4, by rw [z4]; push_cast; ring⟩
    · exact ⟨8, by rw [z8]; push_cast; ring⟩
  obtain ⟨a, ha'⟩ := key _ _ hx
  obtain ⟨b, hb'⟩ := key _ _ hy
  have : p = gridPt im a b := Prod.ext ha' hb'
  rw [this]
  exact C44_alpha_one im hw hh f hf alpha ha a b

/-- C44: the upper left corner of a camera that flips nothing. -/
example : InIm (4, 3) (dotK (undistIntrinsic (4, 3) (fun p => ![p.1, p.2, 1]) 1) ![0, 0, 1]) :=
  C44_corners (4, 3) (by decide) (by decide) (fun p => ![p.1, p.2, 1]) (fun _ => rfl) 1 (le_refl _) (0, 0) (by simp) (by simp)

/-! ## C61 -/

/-- C61: with distortion, the boundary is that of the source image.  Without, each of its points is the undistorted pixel of a
point of the boundary of the source image, moved into the image if it lies outside. -/
theorem C61_boundary_points (c : FrameCam) (num : Option ℤ) (l : List (ℝ × ℝ)) (hl : pixelBoundary c.imSize num = .ok l) :
    (c.distort = true → c.boundary num = .ok l) ∧
    (c.distort = false → ∃ l', c.boundary num = .ok l' ∧ l'.length = l.length ∧
      ∀ k (h : k < l.length) (h' : k < l'.length), ∀ u, u = c.undistortPixel l[k] →
        (InIm c.imSize u → l'[k] = u) ∧
        (u.1 < 0 → l'[k].1 = min 0 ((c.imSize.1 : ℝ) - 1)) ∧ ((c.imSize.1 : ℝ) - 1 < u.1 → l'[k].1 = (c.imSize.1 : ℝ) - 1) ∧
        (u.2 < 0 → l'[k].2 = min 0 ((c.imSize.2 : ℝ) - 1)) ∧ ((c.imSize.2 : ℝ) - 1 < u.2 → l'[k].2 = (c.imSize.2 : ℝ) - 1)) := by
  constructor
  · intro hd
    simp only [FrameCam.boundary, hl, ok_bind, hd, if_true]
    rfl
  · intro hd
    refine ⟨l.map fun p => FrameCam.clipIm c.imSize (c.undistortPixel p), ?_, by simp, ?_⟩
    · simp only [FrameCam.boundary, hl, ok_bind, hd]
      rfl
    · rintro k h h' u rfl
      rw [List.getElem_map]
      refine ⟨?_, ?_, ?_, ?_, ?_⟩
      · rintro ⟨a, b, c', d⟩
        apply Prod.ext
        · simp only [FrameCam.clipIm]
          rw [max_eq_left a, min_eq_left b]
        · simp only [FrameCam.clipIm]
          rw [max_eq_left c', min_eq_left d]
      · intro hu
        simp only [FrameCam.clipIm]
        rw [max_eq_right hu.le]
      · intro hu
        simp only [FrameCam.clipIm]
        rw [min_eq_right (le_trans hu.le (le_max_left _ _))]
      · intro hu
        simp only [FrameCam.clipIm]
        rw [max_eq_right hu.le]
      · intro hu
        simp only [FrameCam.clipIm]
        rw [min_eq_right (le_trans hu.le (le_max_left _ _))]

end

end Verif.Frame
