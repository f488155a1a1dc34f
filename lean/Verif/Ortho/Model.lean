import Verif.Base.Affine
import Verif.Tiles.Model

/-!
# Model of remapping a source image to an ortho image

`Camera.remap`, `FrameCamera.remap` (orthority/camera.py) and `Ortho._remap_tile`, `Ortho._remap`
(orthority/ortho.py), with the thread pool as an interleaving of worker steps.
-/

set_option autoImplicit false

namespace Verif.Ortho
open Verif.Tiles

variable {K : Type} [Field K] [DecidableEq K]

/-- A pixel value, `none` is NaN. -/
abbrev Pix (K : Type) := Option K

/-- Numpy `==` on values that may be NaN: NaN differs from everything. -/
def pyEq (a b : Pix K) : Bool :=
  match a, b with
  | some x, some y => decide (x = y)
  | _, _ => false

/-- orthority/common.py:92-94 `nan_equals`. -/
def nanEquals (a b : Pix K) : Bool := pyEq a b || (a.isNone && b.isNone)

/-- A 2D numpy array. -/
structure Grid (α : Type) where
  h : ℕ
  w : ℕ
  get : ℕ → ℕ → α

/-- Numpy slice `g[r0 : r0 + h, c0 : c0 + w]` (stops are clipped to the array). -/
def Grid.slice {α : Type} (g : Grid α) (r0 h c0 w : ℕ) : Grid α where
  h := min (r0 + h) g.h - min r0 g.h
  w := min (c0 + w) g.w - min c0 g.w
  get r c := g.get (r0 + r) (c0 + c)

/-- What remapping needs from a camera and OpenCV.  `w2p` is `world_to_pixel` for one point (NaN is
`none`); `f32` is the conversion of pixel coordinates to float32 (camera.py:376-377); `samp src j i` is
`cv2.remap` for one band at one output pixel with `BORDER_TRANSPARENT` and the interpolation of the call:
`none` when OpenCV leaves the destination pixel as it was, i.e. when `(j, i)` is outside the image. -/
structure Cam (K Src : Type) where
  w2p : Pix K → Pix K → Pix K → Pix K × Pix K
  f32 : K → K
  samp : Src → K → K → Option (Pix K)

/-- A remapped tile: `remap_array` by band position, and `remap_mask`. -/
structure Tile (K : Type) where
  h : ℕ
  w : ℕ
  nb : ℕ
  val : ℕ → ℕ → ℕ → Pix K
  mask : ℕ → ℕ → Bool

/-- A source array as read by `Camera.read`: its band arrays, and the (height, width) in pixels. -/
structure SrcArray (Src : Type) where
  bands : List Src
  h : ℕ
  w : ℕ

/-- orthority/camera.py:48-49 `Camera._shrt_max`. -/
def shrtMax : ℕ := 32767

/-- Remapped value of one band at one pixel, orthority/camera.py:369-395: `world_to_pixel`, NaN to -1
for each coordinate, float32 conversion, then `cv2.remap` onto an array filled with nodata. -/
def remapPix {Src : Type} (cam : Cam K Src) (nodata : Pix K) (x y z : Pix K) (src : Src) : Pix K :=
  let ji := cam.w2p x y z
  let j := cam.f32 (ji.1.getD (-1))
  let i := cam.f32 (ji.2.getD (-1))
  (cam.samp src j i).getD nodata

/-- orthority/camera.py:319-399 `Camera.remap` with `nodata` given.  Data type checks (lines 89, 361-364)
are left out: arrays here have the types that the callers pass.  `cv2.remap` refuses images and maps with a side of 32767 (`SHRT_MAX`) or more
pixels. -/
def cameraRemap {Src : Type} (cam : Cam K Src) (im : SrcArray Src) (x y z : Grid (Pix K))
    (nodata : Pix K) : Res (Tile K) :=
  if im.h > shrtMax ∨ im.w > shrtMax then .error .valueError
  else if ¬ (x.h = y.h ∧ x.w = y.w ∧ y.h = z.h ∧ y.w = z.w) then .error .valueError
  else if im.bands ≠ [] ∧ (shrtMax ≤ im.h ∨ shrtMax ≤ im.w ∨ shrtMax ≤ x.h ∨ shrtMax ≤ x.w) then .error .cvError
  else
    let val b r c := match im.bands[b]? with
      | some src => remapPix cam nodata (x.get r c) (y.get r c) (z.get r c) src
      | none => nodata
    .ok {
      h := x.h, w := x.w, nb := im.bands.length, val := val
      mask := fun r c => (List.range im.bands.length).all fun b => nanEquals (val b r c) nodata }

/-- `cv2.dilate(mask, np.ones((kh, kw)))`: maximum over the kernel with the default anchor
`(kw // 2, kh // 2)`; pixels outside the array do not count (OpenCV's default border for dilation). -/
def dilate (h w : ℕ) (kw kh : ℕ) (m : ℕ → ℕ → Bool) : ℕ → ℕ → Bool := fun r c =>
  (List.range kh).any fun dr => (List.range kw).any fun dc =>
    decide (kh / 2 ≤ r + dr ∧ r + dr - kh / 2 < h ∧ kw / 2 ≤ c + dc ∧ c + dc - kw / 2 < w) &&
      m (r + dr - kh / 2) (c + dc - kw / 2)

/-- Properties of the camera that decide if `FrameCamera.remap` dilates, orthority/camera.py:1103-1108.
`frame` is false for RPC and GCP cameras, which use `Camera.remap`. -/
structure RemapMode where
  frame : Bool
  distort : Bool
  pinhole : Bool
  nearest : Bool
  deriving DecidableEq, Repr

/-- orthority/camera.py:1103-1108, with `nodata` given. -/
def RemapMode.dilates (m : RemapMode) (nodata : Pix K) : Bool :=
  m.frame && !m.distort && !m.nearest && !nodata.isNone && !m.pinhole

/-- orthority/camera.py:1059-1116 `FrameCamera.remap` (and `Camera.remap` when `mode.frame` is false),
with `nodata` given.  `kernel` is (width, height). -/
def remap {Src : Type} (cam : Cam K Src) (mode : RemapMode) (kernel : ℕ × ℕ) (im : SrcArray Src)
    (x y z : Grid (Pix K)) (nodata : Pix K) : Res (Tile K) :=
  match cameraRemap cam im x y z nodata with
  | .error e => .error e
  | .ok t =>
    if mode.dilates nodata then
      let m := dilate t.h t.w kernel.1 kernel.2 t.mask
      .ok { t with val := fun b r c => if m r c then nodata else t.val b r c, mask := m }
    else .ok t

/-- `remap` as a user calls it, with `nodata` possibly `None` (its default): orthority/camera.py:365-366
and 1100-1116.  `lk` is the lookup `common._nodata_vals[im_array.dtype]`.  The checks come first, then the
lookup; in `FrameCamera.remap` the test `np.isnan(nodata)` (line 1106) is done on the argument, and raises
`TypeError` for `None`, before `None` is replaced (lines 1112-1113). -/
def remapCall {Src : Type} (cam : Cam K Src) (mode : RemapMode) (kernel : ℕ × ℕ) (im : SrcArray Src)
    (x y z : Grid (Pix K)) (lk : Res (Pix K)) (nodata : Option (Pix K)) : Res (Tile K) :=
  match nodata with
  | some nd => remap cam mode kernel im x y z nd
  | none =>
    if im.h > shrtMax ∨ im.w > shrtMax then .error .valueError
    else if ¬ (x.h = y.h ∧ x.w = y.w ∧ y.h = z.h ∧ y.w = z.w) then .error .valueError
    else match lk with
      | .error e => .error e
      | .ok nd =>
        match cameraRemap cam im x y z nd with
        | .error e => .error e
        | .ok t => if mode.frame && !mode.distort && !mode.nearest then .error .typeError else .ok t

/-- `common._nodata_vals[im_array.dtype]` (camera.py:366, 926, 1055, 1113).  The keys of `_nodata_vals`
(common.py:58-60) are strings; the key looked up is a `numpy.dtype` object, whose hash is not the hash of
its name, so python raises `KeyError` for every data type. -/
def nodataByDtypeObject : Res (Pix K) := .error .keyError

/-- The ortho image file being written: bands are numbered from 1, `valid` is the dataset mask that
`write_mask` sets. -/
structure OrthoIm (K : Type) where
  data : ℕ → ℕ → ℕ → Pix K
  valid : ℕ → ℕ → Bool

/-- Inputs of `Ortho._remap` (orthority/ortho.py:401-482).  `readBand b` is band `b` (from 1) of the source
image as `Camera.read` returns it (camera.py:1051-1057, bands are undistorted one by one), `dem` the DEM in
the ortho grid, `nodata` the value for the data type (`dtype_nodata`), `out` the ortho dataset, `count` its
band count. -/
structure RemapIn (K Src : Type) where
  cam : Cam K Src
  mode : RemapMode
  kernel : ℕ × ℕ
  readBand : ℕ → Src
  srcH : ℕ
  srcW : ℕ
  count : ℕ
  dem : Grid (Pix K)
  transform : Affine K
  nodata : Pix K
  out : ImInfo
  writeMask : Bool

variable {Src : Type}

/-- orthority/ortho.py:421-426: x and y grids for the first tile `w₀`. -/
def initGrids (T : Affine K) (w₀ : Win) : Grid (K × K) where
  h := w₀.height
  w := w₀.width
  get r c := (T.mul (Affine.translation (1 / 2) (1 / 2))).apply (c : K) (r : K)

/-- orthority/ortho.py:363-369: x and y grids of a tile from the grids of the first tile. -/
def tileGrids (T : Affine K) (init : Grid (K × K)) (w : Win) : Grid (K × K) :=
  let s := init.slice 0 w.height 0 w.width
  let tt := T.window (w.colOff : K) (w.rowOff : K)
  { h := s.h, w := s.w, get := fun r c => ((s.get r c).1 + (tt.c - T.c), (s.get r c).2 + (tt.f - T.f)) }

/-- orthority/ortho.py:345-392: the computing part of `Ortho._remap_tile` (before the lock). -/
def computeTile (p : RemapIn K Src) (w₀ : Win) (indexes : List ℕ) (w : Win) : Res (Tile K) :=
  let g := tileGrids p.transform (initGrids p.transform w₀) w
  let zg := p.dem.slice w.rowOff w.height w.colOff w.width
  remap p.cam p.mode p.kernel ⟨indexes.map p.readBand, p.srcH, p.srcW⟩
    ⟨g.h, g.w, fun r c => some (g.get r c).1⟩ ⟨g.h, g.w, fun r c => some (g.get r c).2⟩ zg p.nodata

/-- `ortho_im.write(tile_array, indexes, window=tile_win)`, orthority/ortho.py:396. -/
def writeData (im : OrthoIm K) (indexes : List ℕ) (w : Win) (t : Tile K) : OrthoIm K :=
  { im with
    data := fun b r c =>
      if w.rowOff ≤ r ∧ r < w.rowOff + w.height ∧ w.colOff ≤ c ∧ c < w.colOff + w.width then
        match indexes.idxOf? b with
        | some k => t.val k (r - w.rowOff) (c - w.colOff)
        | none => im.data b r c
      else im.data b r c }

/-- `ortho_im.write_mask(~tile_mask, window=tile_win)` under its condition, orthority/ortho.py:398-399. -/
def writeMask (p : RemapIn K Src) (im : OrthoIm K) (indexes : List ℕ) (w : Win) (t : Tile K) : OrthoIm K :=
  if p.writeMask ∧ (indexes = [1] ∨ indexes.length = p.count) then
    { im with
      valid := fun r c =>
        if w.rowOff ≤ r ∧ r < w.rowOff + w.height ∧ w.colOff ≤ c ∧ c < w.colOff + w.width then
          !t.mask (r - w.rowOff) (c - w.colOff)
        else im.valid r c }
  else im

/-- Where a worker thread is in `Ortho._remap_tile`. -/
inductive Phase (K : Type)
  | pending
  | computed (t : Tile K)
  | locked (t : Tile K)
  | dataDone (t : Tile K)
  | done
  | failed (e : PyErr)

/-- State of the thread pool for one batch of tiles: the phase of each job, the holder of
`self._write_lock`, and the ortho image. -/
structure Pool (K : Type) where
  phase : ℕ → Phase K
  lock : Option ℕ
  im : OrthoIm K

/-- Set the phase of one job. -/
def Pool.set (s : Pool K) (i : ℕ) (ph : Phase K) : ℕ → Phase K := fun k => if k = i then ph else s.phase k

/-- One step of some worker, orthority/ortho.py:383-399 run by the executor of lines 441-472.  Any worker
may step at any time, except that the lock is exclusive.  (The executor also limits how many jobs run at
once, so the code's executions are a subset of these.) -/
inductive Step (p : RemapIn K Src) (w₀ : Win) (wins : List Win) (indexes : List ℕ) :
    Pool K → Pool K → Prop
  | compute (s : Pool K) (i : ℕ) (w : Win) (t : Tile K) :
      wins[i]? = some w → s.phase i = .pending → computeTile p w₀ indexes w = .ok t →
      Step p w₀ wins indexes s { s with phase := s.set i (.computed t) }
  | fail (s : Pool K) (i : ℕ) (w : Win) (e : PyErr) :
      wins[i]? = some w → s.phase i = .pending → computeTile p w₀ indexes w = .error e →
      Step p w₀ wins indexes s { s with phase := s.set i (.failed e) }
  | acquire (s : Pool K) (i : ℕ) (t : Tile K) :
      s.phase i = .computed t → s.lock = none →
      Step p w₀ wins indexes s { s with phase := s.set i (.locked t), lock := some i }
  | data (s : Pool K) (i : ℕ) (w : Win) (t : Tile K) :
      wins[i]? = some w → s.phase i = .locked t → s.lock = some i →
      Step p w₀ wins indexes s { s with phase := s.set i (.dataDone t), im := writeData s.im indexes w t }
  | mask (s : Pool K) (i : ℕ) (w : Win) (t : Tile K) :
      wins[i]? = some w → s.phase i = .dataDone t → s.lock = some i →
      Step p w₀ wins indexes s
        { phase := s.set i .done, lock := none, im := writeMask p s.im indexes w t }

/-- Any number of worker steps. -/
inductive Steps (p : RemapIn K Src) (w₀ : Win) (wins : List Win) (indexes : List ℕ) :
    Pool K → Pool K → Prop
  | refl (s : Pool K) : Steps p w₀ wins indexes s s
  | tail {s t u : Pool K} : Steps p w₀ wins indexes s t → Step p w₀ wins indexes t u →
      Steps p w₀ wins indexes s u

/-- All jobs submitted, none started. -/
def Pool.init (im : OrthoIm K) : Pool K := ⟨fun _ => .pending, none, im⟩

/-- Phases in which `future.result()` returns or raises. -/
def Phase.finished : Phase K → Prop
  | .done => True
  | .failed _ => True
  | _ => False

/-- Outcome of one batch, orthority/ortho.py:441-482: the executor's `with` block waits for all jobs,
then `RuntimeError` if any future failed, otherwise the batch is complete. -/
inductive Batch (p : RemapIn K Src) (w₀ : Win) (wins : List Win) (indexes : List ℕ) (im : OrthoIm K) :
    Res (OrthoIm K) → Prop
  | ok (s : Pool K) : Steps p w₀ wins indexes (Pool.init im) s →
      (∀ i < wins.length, s.phase i = .done) → Batch p w₀ wins indexes im (.ok s.im)
  | error (s : Pool K) (i : ℕ) (e : PyErr) : Steps p w₀ wins indexes (Pool.init im) s →
      (∀ i < wins.length, (s.phase i).finished) → s.phase i = .failed e →
      Batch p w₀ wins indexes im (.error .runtimeError)

/-- orthority/ortho.py:430-433: lists of band indexes to process together. -/
def indexList (perBand : Bool) (count : ℕ) : List (List ℕ) :=
  if perBand then (List.range' 1 count).map fun i => [i] else [List.range' 1 count]

/-- The loop over batches, orthority/ortho.py:443-482: next batch only when the one before is complete. -/
inductive Batches (p : RemapIn K Src) (w₀ : Win) (wins : List Win) :
    List (List ℕ) → OrthoIm K → Res (OrthoIm K) → Prop
  | nil (im : OrthoIm K) : Batches p w₀ wins [] im (.ok im)
  | cons {ix : List ℕ} {l : List (List ℕ)} {im im' : OrthoIm K} {r : Res (OrthoIm K)} :
      Batch p w₀ wins ix im (.ok im') → Batches p w₀ wins l im' r → Batches p w₀ wins (ix :: l) im r
  | stop {ix : List ℕ} {l : List (List ℕ)} {im : OrthoIm K} {e : PyErr} :
      Batch p w₀ wins ix im (.error e) → Batches p w₀ wins (ix :: l) im (.error e)

/-- orthority/ortho.py:401-482 `Ortho._remap`: relation between the ortho image before and the possible
outcomes.  `next()` of an empty generator raises `StopIteration` (line 421). -/
inductive Remap (p : RemapIn K Src) (perBand : Bool) (im : OrthoIm K) : Res (OrthoIm K) → Prop
  | run {w₀ : Win} {ws : List Win} {r : Res (OrthoIm K)} :
      blockWindows p.out = .ok (w₀ :: ws) →
      Batches p w₀ (w₀ :: ws) (indexList perBand p.count) im r → Remap p perBand im r
  | empty : blockWindows p.out = .ok [] → Remap p perBand im (.error .stopIteration)
  | block {e : PyErr} : blockWindows p.out = .error e → Remap p perBand im (.error e)

end Verif.Ortho
