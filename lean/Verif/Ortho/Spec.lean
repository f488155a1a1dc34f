import Verif.Ortho.Model

/-!
# What an ortho image should hold
-/

set_option autoImplicit false

namespace Verif.Ortho
open Verif.Tiles

variable {K : Type} [Field K] [DecidableEq K] {Src : Type}

/-- World (x, y) position of the centre of ortho pixel (row `r`, column `c`). -/
def pixelCentre (T : Affine K) (r c : ℕ) : K × K := T.apply ((c : K) + 1 / 2) ((r : K) + 1 / 2)

/-- The value that band `b` should have at ortho pixel (`r`, `c`): the source band sampled at the
projection of the pixel centre with the DEM height of the pixel, nodata when there is no sample.  A NaN
coordinate is looked up at -1. -/
def orthoValue (p : RemapIn K Src) (b r c : ℕ) : Pix K :=
  let xy := pixelCentre p.transform r c
  let ji := p.cam.w2p (some xy.1) (some xy.2) (p.dem.get r c)
  match p.cam.samp (p.readBand b) (p.cam.f32 (ji.1.getD (-1))) (p.cam.f32 (ji.2.getD (-1))) with
  | some v => v
  | none => p.nodata

/-- Validity that the mask of an all-bands run should have: some band is not nodata. -/
def orthoValid (p : RemapIn K Src) (r c : ℕ) : Prop :=
  ∃ b, 1 ≤ b ∧ b ≤ p.count ∧ orthoValue p b r c ≠ p.nodata

end Verif.Ortho
