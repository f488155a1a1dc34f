import Verif.Tiles.Model

/-!
# What a tiling of an image is
-/

set_option autoImplicit false

namespace Verif.Tiles

/-- Pixel (row `r`, column `c`) of the image lies in the window. -/
def Win.Has (w : Win) (r c : ℕ) : Prop :=
  w.rowOff ≤ r ∧ r < w.rowOff + w.height ∧ w.colOff ≤ c ∧ c < w.colOff + w.width

instance (w : Win) (r c : ℕ) : Decidable (w.Has r c) := by unfold Win.Has; infer_instance

/-- A list of windows tiles an image of the given size when all windows are non-empty and inside the
image, and every pixel is in exactly one window of the list (counted with repetition). -/
structure Tiling (height width : ℕ) (ws : List Win) : Prop where
  inside : ∀ w ∈ ws, 0 < w.width ∧ 0 < w.height ∧ w.colOff + w.width ≤ width ∧ w.rowOff + w.height ≤ height
  once : ∀ r < height, ∀ c < width, ws.countP (fun w => decide (w.Has r c)) = 1

end Verif.Tiles
