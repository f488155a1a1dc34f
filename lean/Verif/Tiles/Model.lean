import Verif.Base.Err
import Mathlib.Data.Nat.Basic

/-!
# Model of the block window generator
-/

set_option autoImplicit false

namespace Verif.Tiles

/-- A rasterio `Window` with whole number offsets and sizes, as made by
orthority/common.py:582 (`Window(col_off, row_off, width, height)`). -/
structure Win where
  colOff : ℕ
  rowOff : ℕ
  width : ℕ
  height : ℕ
  deriving DecidableEq, Repr

/-- What `block_windows` reads from an open dataset, orthority/common.py:572-578.  `cog` is
`im.driver.lower() == 'cog'`, `blocksize` the optional profile entry and `blockShape0`
`im.block_shapes[0]` as (height, width). -/
structure ImInfo where
  width : ℕ
  height : ℕ
  cog : Bool
  blocksize : Option ℕ
  blockShape0 : ℕ × ℕ
  deriving DecidableEq, Repr

/-- Choice of block shape (height, width), orthority/common.py:572-575.  A python `(0, 0)` tuple is
truthy, so any given shape is used. -/
def resolveBlock (im : ImInfo) (blockShape : Option (ℕ × ℕ)) : ℕ × ℕ :=
  match blockShape with
  | some bs => bs
  | none => if im.cog then (im.blocksize.getD 512, im.blocksize.getD 512) else im.blockShape0

/-- Python `range(0, stop, step)` for a positive step: `0, step, 2*step, ...` below `stop`. -/
def pyRange (stop step : ℕ) : List ℕ :=
  (List.range ((stop + step - 1) / step)).map (· * step)

/-- orthority/common.py:568-582 `block_windows`.  Windows in the order that the generator yields them:
columns outer, rows inner (`itertools.product(xrange, yrange)`).  `range` with a zero step raises
`ValueError`. -/
def blockWindows (im : ImInfo) (blockShape : Option (ℕ × ℕ) := none) : Res (List Win) :=
  let bs := resolveBlock im blockShape
  if bs.2 = 0 ∨ bs.1 = 0 then .error .valueError
  else
    .ok ((pyRange im.width bs.2).flatMap fun xstart =>
      (pyRange im.height bs.1).map fun ystart =>
        let xstop := min (xstart + bs.2) im.width
        let ystop := min (ystart + bs.1) im.height
        { colOff := xstart, rowOff := ystart, width := xstop - xstart, height := ystop - ystart })

end Verif.Tiles
