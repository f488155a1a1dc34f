import Verif.Common.Window
import Verif.Ortho.Model

/-!
# Model of DEM cropping and masking, orthority/ortho.py
-/

set_option autoImplicit false
set_option linter.unusedSectionVars false

namespace Verif.Dem
open Verif.Common Verif.Ortho

variable {K : Type} [Field K] [LinearOrder K] [IsStrictOrderedRing K] [FloorRing K]

/-! ## `_get_init_dem` -/

/-- Inputs of `_get_init_dem`, orthority/ortho.py:127-205.  `t`, `w`, `h` and `val` are transform, size and (masked)
values of the DEM band (a NaN that rasterio does not mask is not modelled); `crsEqual` is line 140; `tb` is `transform_bounds` from the ortho to the DEM CRS;
`boundary z` the (x, y) rows of `camera.world_boundary(z)`; `zlo` and `zhi` the elevations of line 174; `zmap` gives
the ortho z coordinate of a DEM point (line 186; its value for a masked elevation is not known); `f32` rounds to
float32. -/
structure DemIn (K : Type) where
  t : Affine K
  w : ℕ
  h : ℕ
  val : ℕ → ℕ → Pix K
  crsEqual : Bool
  tb : Bnds K → Res (Bnds K)
  boundary : K → Res (List (K × K))
  zlo : K
  zhi : K
  zmap : K → K → Pix K → K
  f32 : K → K

/-- Smallest element of a list, `np.min`. -/
def lmin (x : K) (l : List K) : K := l.foldl min x

/-- Largest element of a list, `np.max`. -/
def lmax (x : K) (l : List K) : K := l.foldl max x

/-- `[*np.min(world_xyz[:2], axis=1), *np.max(world_xyz[:2], axis=1)]`, orthority/ortho.py:160.  `np.min` of an
empty array is a `ValueError`. -/
def boundsOf : List (K × K) → Res (Bnds K)
  | [] => .error .valueError
  | p :: l => .ok ⟨lmin p.1 (l.map Prod.fst), lmin p.2 (l.map Prod.snd), lmax p.1 (l.map Prod.fst),
      lmax p.2 (l.map Prod.snd)⟩

/-- `world_boundary` at each elevation, stacked, orthority/ortho.py:156-159. -/
def stackBoundary (boundary : K → Res (List (K × K))) : List K → Res (List (K × K))
  | [] => .ok []
  | z :: zs => do
    let p ← boundary z
    let q ← stackBoundary boundary zs
    .ok (p ++ q)

/-- `dem_bounds`, orthority/ortho.py:156-165. -/
def demBounds (d : DemIn K) (zs : List K) : Res (Bnds K) := do
  let pts ← stackBoundary d.boundary zs
  let wb ← boundsOf pts
  if d.crsEqual then .ok wb else d.tb wb

/-- orthority/ortho.py:154-171 `get_win_at_zs`. -/
def winAtZs (d : DemIn K) (zs : List K) : Res IWin := do
  let b ← demBounds d zs
  let w ← fromBounds d.t b
  match (⟨0, 0, d.w, d.h⟩ : RWin K).inter w with
  | .error _ => .error .orthorityError
  | .ok i => .ok (expandWindowToGrid i (0, 0))

/-- `rasterio` intersection of windows with integer offsets and sizes, orthority/ortho.py:190. -/
def interI (a b : IWin) : Res IWin :=
  let c0 := max a.colOff b.colOff
  let c1 := min (a.colOff + a.width) (b.colOff + b.width)
  let r0 := max a.rowOff b.rowOff
  let r1 := min (a.rowOff + a.height) (b.rowOff + b.height)
  if c0 ≥ c1 ∨ r0 ≥ r1 then .error .windowError else .ok ⟨c0, r0, c1 - c0, r1 - r0⟩

/-- The first value is less than the second, masked values being greater than all (`np.ma.argmin`). -/
def lessM : Pix K → Pix K → Bool
  | none, _ => false
  | some _, none => true
  | some a, some b => decide (a < b)

/-- The first value is greater than the second, masked values being less than all (`np.ma.argmax`). -/
def moreM : Pix K → Pix K → Bool
  | none, _ => false
  | some _, none => true
  | some a, some b => decide (b < a)

/-- First cell of the list that no other is better than. -/
def argBest (better : Pix K → Pix K → Bool) (f : ℕ × ℕ → Pix K) (cells : List (ℕ × ℕ)) : ℕ × ℕ :=
  cells.foldl (fun best p => if better (f p) (f best) then p else best) (cells.headD (0, 0))

/-- (row, column) pairs of an array in memory order. -/
def cellsOf (h w : ℕ) : List (ℕ × ℕ) := (List.range h).flatMap fun r => (List.range w).map fun c => (r, c)

/-- `dem_im.read(dem_band, window=dem_win, masked=True)`, orthority/ortho.py:177: values in the window. -/
def readWin (d : DemIn K) (win : IWin) : ℕ → ℕ → Pix K := fun r c =>
  d.val (win.rowOff + r).toNat (win.colOff + c).toNat

/-- `zs`, orthority/ortho.py:182-187: elevations of the lowest and highest DEM points in the ortho CRS.  `ij[::-1]` is
(column, row). -/
def demZs (d : DemIn K) (win : IWin) : List K :=
  let arr := readWin d win
  let wt := d.t.window win.colOff win.rowOff
  [lessM, moreM].map fun better =>
    let ij := argBest better (fun p => arr p.1 p.2) (cellsOf win.height.toNat win.width.toNat)
    let xy := wt.apply ij.2 ij.1
    d.zmap xy.1 xy.2 (arr ij.1 ij.2)

/-- The cropped DEM. -/
structure DemOut (K : Type) where
  arr : ℕ → ℕ → Pix K
  h : ℕ
  w : ℕ
  t : Affine K

/-- orthority/ortho.py:192-205: crop the array that was read from `first` to `win`, and find its transform. -/
def cropDem (d : DemIn K) (first win : IWin) : DemOut K :=
  let r0 := win.rowOff - first.rowOff
  let c0 := win.colOff - first.colOff
  { arr := fun r c => (readWin d first (r0 + r).toNat (c0 + c).toNat).map d.f32
    h := win.height.toNat
    w := win.width.toNat
    t := d.t.window win.colOff win.rowOff }

/-- orthority/ortho.py:127-205 `_get_init_dem`.  The test of `dem_band` (lines 134-138) and the scale of z units
(lines 142-151) are not in this model: `zlo` and `zhi` are inputs (see `zRange` in `Dem/Range.lean`). -/
def initDem (d : DemIn K) : Res (DemOut K) := do
  let first ← winAtZs d [d.zlo, d.zhi]
  let win ← winAtZs d (demZs d first)
  let win ← interI win first
  .ok (cropDem d first win)

/-! ## `_mask_dem` -/

/-- Inputs of `_mask_dem` (orthority/ortho.py:292-343): the DEM, the camera's boundary on it (`poly_xy`), and
`cv2.fillPoly` for an array of the given size. -/
structure MaskIn (K : Type) where
  arr : ℕ → ℕ → Pix K
  h : ℕ
  w : ℕ
  t : Affine K
  poly : List (K × K)
  fillPoly : List (ℤ × ℤ) → ℕ → ℕ → Bool

/-- `poly_ji`, orthority/ortho.py:313-314: pixel coordinates of the boundary relative to pixel centres, rounded. -/
def polyJi (m : MaskIn K) : List (ℤ × ℤ) :=
  let inv := (m.t.mul (.translation (1 / 2) (1 / 2))).inv
  m.poly.map fun p => (rint (inv.apply p.1 p.2).1, rint (inv.apply p.1 p.2).2)

/-- `dem_mask`, orthority/ortho.py:315-317. -/
def demMask (m : MaskIn K) (r c : ℕ) : Bool := m.fillPoly (polyJi m) r c && (m.arr r c).isSome

/-- `np.where(dem_mask.max(axis=1))[0]`: rows with a pixel in the mask, orthority/ortho.py:333. -/
def maskRows (m : MaskIn K) : List ℕ := (List.range m.h).filter fun r => (List.range m.w).any fun c => demMask m r c

/-- `np.where(dem_mask.max(axis=0))[0]`: columns with a pixel in the mask, orthority/ortho.py:333. -/
def maskCols (m : MaskIn K) : List ℕ := (List.range m.w).filter fun c => (List.range m.h).any fun r => demMask m r c

/-- `slice(where.min(), where.max() + 1)`, orthority/ortho.py:334: start and stop.  The list is increasing. -/
def sliceOf (l : List ℕ) : ℕ × ℕ := (l.headD 0, l.getLastD 0 + 1)

/-- Whether the warning of orthority/ortho.py:322-329 is given: DEM pixels in the polygon are invalid, or a point of
the polygon is outside the DEM. -/
def notCovered (m : MaskIn K) : Bool :=
  ((List.range m.h).any fun r => (List.range m.w).any fun c => m.fillPoly (polyJi m) r c && !(m.arr r c).isSome) ||
  (polyJi m).any fun p => decide (p.1 < 0 ∨ p.2 < 0 ∨ p.1 + 1 > m.w ∨ p.2 + 1 > m.h)

/-- Result of `_mask_dem`, with the warning, and the array that was passed in as it is afterwards (line 342 writes
through a view of it). -/
structure MaskOut (K : Type) where
  out : DemOut K
  warned : Bool
  input : ℕ → ℕ → Pix K

/-- orthority/ortho.py:292-343 `_mask_dem`. -/
def maskDem (m : MaskIn K) (crop mask : Bool) : Res (MaskOut K) :=
  if (maskRows m).isEmpty then .error .orthorityError
  else
    let rs := if crop then sliceOf (maskRows m) else (0, m.h)
    let cs := if crop then sliceOf (maskCols m) else (0, m.w)
    let inView := fun r c => rs.1 ≤ r ∧ r < rs.2 ∧ cs.1 ≤ c ∧ c < cs.2
    let input := fun r c => if mask = true ∧ inView r c ∧ demMask m r c = false then none else m.arr r c
    .ok {
      out := {
        arr := fun r c => input (rs.1 + r) (cs.1 + c)
        h := rs.2 - rs.1
        w := cs.2 - cs.1
        t := if crop then m.t.mul (.translation cs.1 rs.1) else m.t }
      warned := notCovered m
      input := input }

end Verif.Dem
