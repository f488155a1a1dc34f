import Verif.Base.Err
import Verif.Base.Dict
import Mathlib.Algebra.Order.Floor.Ring
import Mathlib.Algebra.Order.Field.Basic
import Mathlib.Analysis.SpecialFunctions.Log.Base

/-!
# Model of helper functions in orthority/common.py
-/

set_option autoImplicit false

namespace Verif.Common

section Windows
variable {K : Type} [Field K] [LinearOrder K] [IsStrictOrderedRing K] [FloorRing K]

/-- `rasterio.windows.Window` with real offsets and sizes. -/
structure RWin (K : Type) where
  colOff : K
  rowOff : K
  width : K
  height : K
  deriving DecidableEq

/-- `rasterio.windows.Window` with integer offsets and sizes. -/
structure IWin where
  colOff : ℤ
  rowOff : ℤ
  width : ℤ
  height : ℤ
  deriving DecidableEq, Repr

/-- orthority/common.py:82-89 `expand_window_to_grid`.  `e` is `expand_pixels`, (rows, columns).
`np.divmod(a, 1)` is (floor, fractional part). -/
def expandWindowToGrid (win : RWin K) (e : ℤ × ℤ) : IWin :=
  let colOff := ⌊win.colOff - e.2⌋
  let colFrac := Int.fract (win.colOff - e.2)
  let rowOff := ⌊win.rowOff - e.1⌋
  let rowFrac := Int.fract (win.rowOff - e.1)
  let width := ⌈win.width + 2 * e.2 + colFrac⌉
  let height := ⌈win.height + 2 * e.1 + rowFrac⌉
  ⟨colOff, rowOff, width, height⟩

/-- orthority/common.py:156-161 `utm_crs_from_latlon`, the EPSG code. -/
def utmEpsg (lat lon : K) : ℤ :=
  let zone := ⌊(lon + 180) / 6⌋ % 60 + 1
  if lat ≥ 0 then 32600 + zone else 32700 + zone

end Windows

section Dtypes

/-- The data types in `_nodata_vals`, orthority/common.py:58-60. -/
inductive Dt
  | uint8 | uint16 | int16 | float32 | float64
  deriving DecidableEq, Repr

/-- A value in an array: an integer array holds `int`, a floating point array `fin`, `nan` or `inf`. -/
inductive Val (K : Type)
  | int (n : ℤ)
  | fin (x : K)
  | nan
  | inf (neg : Bool)
  deriving DecidableEq

/-- `np.issubdtype(dtype, np.integer)`. -/
def Dt.isInt : Dt → Bool
  | .uint8 => true | .uint16 => true | .int16 => true | _ => false

/-- `np.iinfo(dtype).min` (integer types). -/
def Dt.lo : Dt → ℤ
  | .int16 => -32768 | _ => 0

/-- `np.iinfo(dtype).max` (integer types). -/
def Dt.hi : Dt → ℤ
  | .uint8 => 255 | .uint16 => 65535 | .int16 => 32767 | _ => 0

/-- `np.can_cast(src, dst, casting='safe')` for the five types. -/
def canCastSafe : Dt → Dt → Bool
  | .uint8, _ => true
  | .uint16, .uint16 => true | .uint16, .float32 => true | .uint16, .float64 => true
  | .int16, .int16 => true | .int16, .float32 => true | .int16, .float64 => true
  | .float32, .float32 => true | .float32, .float64 => true
  | .float64, .float64 => true
  | _, _ => false

variable {K : Type} [Field K] [LinearOrder K] [IsStrictOrderedRing K] [FloorRing K]

/-- `np.round` to an integer: ties go to even. -/
def rint (x : K) : ℤ :=
  if Int.fract x < 1 / 2 then ⌊x⌋
  else if 1 / 2 < Int.fract x then ⌊x⌋ + 1
  else if ⌊x⌋ % 2 = 0 then ⌊x⌋ else ⌊x⌋ + 1

/-- `np.round(array, out=array)` on a floating point value. -/
def roundVal : Val K → Val K
  | .fin x => .fin (rint x : K)
  | v => v

/-- `np.clip(value, lo, hi)`; NaN stays NaN.  The promoted type (`np.promote_types`) represents every value
of both types for the five types here, so promotion itself changes no value. -/
def clipVal (lo hi : ℤ) : Val K → Val K
  | .int n => .int (min (max n lo) hi)
  | .fin x => .fin (min (max x lo) hi)
  | .nan => .nan
  | .inf neg => .fin (if neg then lo else hi)

/-- Conversion to a smaller integer type wraps around. -/
def wrap (dst : Dt) (n : ℤ) : ℤ := dst.lo + (n - dst.lo) % (dst.hi - dst.lo + 1)

/-- Truncation towards zero. -/
def trunc (x : K) : ℤ := if 0 ≤ x then ⌊x⌋ else ⌈x⌉

/-- What `array.astype` does that the code does not control: `f32` is rounding to single precision (which
may overflow to infinity), `junk` is the integer that C makes of NaN or infinity. -/
structure CastEnv (K : Type) where
  f32 : K → Val K
  junk : Dt → Val K → ℤ

/-- `array.astype(dtype, casting='unsafe')`. -/
def astype (env : CastEnv K) (dst : Dt) (v : Val K) : Val K :=
  if dst.isInt then
    match v with
    | .int n => .int (wrap dst n)
    | .fin x => .int (wrap dst (trunc x))
    | v => .int (wrap dst (env.junk dst v))
  else
    match v with
    | .int n => if dst = .float32 then env.f32 (n : K) else .fin (n : K)
    | .fin x => if dst = .float32 then env.f32 x else .fin x
    | v => v

/-- Range test at orthority/common.py:519: `src_info.min < dst_info.min or src_info.max > dst_info.max`,
where the range of a floating point type exceeds that of each of the integer types. -/
def rangeExceeds (src dst : Dt) : Bool :=
  !src.isInt || decide (src.lo < dst.lo) || decide (dst.hi < src.hi)

/-- orthority/common.py:501-529 `convert_array_dtype` for one element. -/
def convertDtype (env : CastEnv K) (src dst : Dt) (v : Val K) : Val K :=
  let unsafeCast := !canCastSafe src dst
  let v := if unsafeCast && !src.isInt && dst.isInt then roundVal v else v
  let v := if unsafeCast && dst.isInt && rangeExceeds src dst then clipVal dst.lo dst.hi v else v
  -- `astype` to the array's own type changes nothing
  if src = dst then v else astype env dst v

end Dtypes

section Profile

/-- Values in a rasterio profile. -/
inductive PVal
  | none
  | str (s : String)
  | nat (n : ℕ)
  | bool (b : Bool)
  | nodata (d : Dt)
  deriving DecidableEq, Repr

/-- orthority/enums.py:112-120 `Compress`. -/
inductive Compress
  | jpeg | deflate | lzw
  deriving DecidableEq, Repr

/-- Enum value. -/
def Compress.value : Compress → String
  | .jpeg => "jpeg" | .deflate => "deflate" | .lzw => "lzw"

/-- `Compress(s)`, `ValueError` when there is no such member. -/
def Compress.parse (s : String) : Res Compress :=
  if s = "jpeg" then .ok .jpeg else if s = "deflate" then .ok .deflate
  else if s = "lzw" then .ok .lzw else .error .valueError

/-- `Driver(s)`, orthority/enums.py. -/
inductive Driver
  | gtiff | cog
  deriving DecidableEq, Repr

def Driver.value : Driver → String
  | .gtiff => "gtiff" | .cog => "cog"

def Driver.parse (s : String) : Res Driver :=
  if s = "gtiff" then .ok .gtiff else if s = "cog" then .ok .cog else .error .valueError

def Dt.name : Dt → String
  | .uint8 => "uint8" | .uint16 => "uint16" | .int16 => "int16" | .float32 => "float32"
  | .float64 => "float64"

/-- `dtype not in _nodata_vals` test, orthority/common.py:436-438. -/
def Dt.parse (s : String) : Res Dt :=
  if s = "uint8" then .ok .uint8 else if s = "uint16" then .ok .uint16
  else if s = "int16" then .ok .int16 else if s = "float32" then .ok .float32
  else if s = "float64" then .ok .float64 else .error .orthorityError

abbrev Profile := Dict String PVal

/-- orthority/common.py:441-449: the initial profile. -/
def initProfile (driver : Driver) (count height width : ℕ) (dtype : Dt) : Profile :=
  [("driver", .str driver.value), ("dtype", .str dtype.name), ("width", .nat width),
   ("height", .nat height), ("count", .nat count), ("bigtiff", .str "if_safer")]

/-- orthority/common.py:454-469: resolve the compression, and `nbits` for 12 bit JPEG. -/
def resolveCompress (dtype : Dt) (compress : Option String) (p : Profile) : Res (Compress × Profile) :=
  match compress with
  | none => .ok (if dtype = .uint8 then .jpeg else .deflate, p)
  | some s =>
    match Compress.parse s with
    | .error e => .error e
    | .ok c =>
      if c = .jpeg then
        if dtype = .uint16 then .ok (c, p.set "nbits" (.nat 12))
        else if dtype ≠ .uint8 then .error .orthorityError
        else .ok (c, p)
      else .ok (c, p)

/-- orthority/common.py:416-498 `create_profile`.  Strings stand for the enum members too (`Compress`,
`Driver` are string enums).  Python argument `compress` is compared with the JPEG member also when creation
options are given and it was not parsed (line 490). -/
def createProfile (driver : String) (count height width : ℕ) (dtype : String) (compress : Option String)
    (writeMask : Option Bool) (opts : Dict String PVal) : Res (Profile × Bool) :=
  match Dt.parse dtype with
  | .error e => .error e
  | .ok dt =>
    match Driver.parse driver with
    | .error e => .error e
    | .ok drv =>
      let p := initProfile drv count height width dt
      let finish (isJpeg : Bool) (p : Profile) : Profile × Bool :=
        let wm := writeMask.getD isJpeg
        (p.set "nodata" (if wm then .none else .nodata dt), wm)
      if opts.length = 0 then
        match resolveCompress dt compress p with
        | .error e => .error e
        | .ok (c, p) =>
          let p := p.set "compress" (.str c.value)
          let p := match drv with
            | .gtiff =>
              let p := if c = .jpeg ∧ count = 3 then p.set "photometric" (.str "ycbcr") else p
              p.update [("tiled", .bool true), ("blockxsize", .nat 512), ("blockysize", .nat 512)]
            | .cog => p.update [("blocksize", .nat 512), ("overviews", .str "force_use_existing")]
          .ok (finish (decide (c = .jpeg)) p)
      else .ok (finish (decide (compress = some "jpeg")) (p.update opts))

end Profile

section Overviews

/-- orthority/common.py:532-556 `build_overviews`: the list of decimation factors.  `int()` truncates towards
zero; `floor` is the same here for image dimensions and `min_level_pixels` of one or more. -/
noncomputable def overviewLevels (height width : ℕ) (maxNumLevels : ℤ) (minLevelPixels : ℕ) : List ℕ :=
  let maxOvwLevels := ⌊min (Real.logb 2 height) (Real.logb 2 width)⌋
  let minLevelShapePow2 := ⌊Real.logb 2 minLevelPixels⌋
  let numOvwLevels := min maxNumLevels (maxOvwLevels - minLevelShapePow2)
  (List.range numOvwLevels.toNat).map fun m => 2 ^ (m + 1)

end Overviews

end Verif.Common
