import Verif.Base.Nan
import Verif.Common.Model
import Verif.Ortho.Model
import Mathlib.Analysis.Real.Sqrt

/-!
# Model of pan-sharpening, orthority/pan_sharp.py

Arrays of bands are functions of the band number; the number of MS bands is `n`.
-/

set_option autoImplicit false

namespace Verif.PanSharp
open Verif.Tiles Verif.Ortho

/-! ## Statistics -/

section Stats
variable {K : Type} [Field K] [DecidableEq K]

/-- The pan and MS images as the WarpedVRTs return them (orthority/pan_sharp.py:276-279, 635-638): pan band
`panIndex`, and the MS bands `ms_indexes` in order.  Both have the nodata value NaN (`_working_nodata`,
pan_sharp.py:62-64, 179-183), here `none`. -/
structure Images (K : Type) where
  n : ℕ
  pan : ℕ → ℕ → Pix K
  ms : ℕ → ℕ → ℕ → Pix K

/-- `pan_mask & ms_mask`, orthority/pan_sharp.py:257-259 and 499-501. -/
def Images.mask (im : Images K) (r c : ℕ) : Bool :=
  let panMask := !nanEquals (im.pan r c) none
  let msMask := (List.range im.n).all fun b => !nanEquals (im.ms b r c) none
  panMask && msMask

/-- A column of `pan_ms_array`, orthority/pan_sharp.py:260-263: the pan value, then the MS values.  Only used
for pixels in the mask, which are not NaN. -/
def Images.vec (im : Images K) (p : ℕ × ℕ) : ℕ → K
  | 0 => (im.pan p.1 p.2).getD 0
  | b + 1 => (im.ms b p.1 p.2).getD 0

/-- The pixels of a tile that are in the mask, in row major order (boolean indexing). -/
def Images.tilePix (im : Images K) (w : Win) : List (ℕ × ℕ) :=
  (List.range w.height).flatMap fun r => (List.range w.width).filterMap fun c =>
    if im.mask (w.rowOff + r) (w.colOff + c) then some (w.rowOff + r, w.colOff + c) else none

/-- `n`, `means` and `prod` of orthority/pan_sharp.py:282-284. -/
structure Agg (K : Type) where
  n : ℕ
  means : ℕ → K
  prod : ℕ → ℕ → K

/-- orthority/pan_sharp.py:265-270: count, mean and sum of deviation products of a tile. -/
def tileStats (l : List (ℕ → K)) : Agg K :=
  let n := l.length
  let mean := fun i => if n > 0 then (l.map fun v => v i).sum / n else 0
  { n := n, means := mean, prod := fun i j => (l.map fun v => (v i - mean i) * (v j - mean j)).sum }

/-- Result of `get_tile_stats`, orthority/pan_sharp.py:241-270. -/
def Images.tileStats (im : Images K) (w : Win) : Agg K := PanSharp.tileStats ((im.tilePix w).map im.vec)

/-- orthority/pan_sharp.py:298-305: aggregate the results of one tile. -/
def Agg.add (s t : Agg K) : Agg K :=
  if t.n > 0 then
    let diff := fun i => t.means i - s.means i
    { n := s.n + t.n
      means := fun i => s.means i + diff i * t.n / ((s.n + t.n : ℕ) : K)
      prod := fun i j => s.prod i j +
        (t.prod i j + diff i * diff j * ((s.n * t.n : ℕ) : K) / ((s.n + t.n : ℕ) : K)) }
  else s

/-- orthority/pan_sharp.py:281-305.  `order` is the order in which the tiles complete (`as_completed`). -/
def Images.aggregate (im : Images K) (order : List Win) : Agg K :=
  order.foldl (fun s w => s.add (im.tileStats w)) ⟨0, fun _ => 0, fun _ _ => 0⟩

/-- orthority/pan_sharp.py:228-309 `_get_stats`: means and covariances.  A tile that cannot be read
(`RuntimeError`) is left out. -/
def Images.getStats (im : Images K) (order : List Win) : (ℕ → K) × (ℕ → ℕ → Fl K) :=
  let s := im.aggregate order
  (s.means, fun i j => .val (s.prod i j) / .val ((s.n : K) - 1))

end Stats

/-! ## Parameters -/

section Params
variable {K : Type} [Field K] [LinearOrder K] [IsStrictOrderedRing K]

/-- orthority/pan_sharp.py:201-205: MS band indexes to use (from 1), by default the non-alpha bands.  `alpha`
tells for each MS band if its colour interpretation is alpha. -/
def resolveIndexes (msCount : ℕ) (alpha : ℕ → Bool) : Option (List ℤ) → List ℤ
  | some (i :: l) => i :: l
  | _ => ((List.range msCount).filter fun b => !alpha b).map fun b : ℕ => (b : ℤ) + 1

/-- orthority/pan_sharp.py:216-224: checks of the weights. -/
def validateWeights (ix : List ℤ) : Option (List K) → Res (Option (List K))
  | some (w :: l) =>
    if (w :: l).length ≠ ix.length then .error .orthorityError
    else if (w :: l).any (fun x => decide (x < 0)) then .error .orthorityError
    else .ok (some (w :: l))
  | _ => .ok none

/-- orthority/pan_sharp.py:186-226 `_validate_pan_ms_params`. -/
def validateParams (panCount msCount : ℕ) (alpha : ℕ → Bool) (panIndex : ℤ) (msIndexes : Option (List ℤ))
    (weights : Option (List K)) : Res (List ℤ × Option (List K)) :=
  if panIndex ≤ 0 ∨ panIndex > panCount then .error .orthorityError
  else
    let ix := resolveIndexes msCount alpha msIndexes
    if ix.any (fun i => decide (i ≤ 0)) || ix.any (fun i => decide (i > msCount)) then .error .orthorityError
    else match validateWeights ix weights with
      | .error e => .error e
      | .ok w => .ok (ix, w)

/-- orthority/pan_sharp.py:324-326, 335-338: the least squares problem for the bands `idx` (from 1), solved by
`np.linalg.lstsq`, which is the parameter `ls`. -/
def lsWeights (ls : List (List K) → List K → List K) (cov : ℕ → ℕ → K) (idx : List ℕ) : List K :=
  ls (idx.map fun i => idx.map fun j => cov i j) (idx.map fun j => cov 0 j)

/-- orthority/pan_sharp.py:335-343: estimate again without the negative bands. -/
def reestimate (ls : List (List K) → List K → List K) (n : ℕ) (cov : ℕ → ℕ → K) (w : List K) : List K :=
  let idx := ((List.range n).filter fun b => decide (0 < w.getD b 0)).map fun b => b + 1
  let w' := lsWeights ls cov idx
  if w'.all (fun x => decide (0 ≤ x)) then
    (List.range n).map fun b => match idx.idxOf? (b + 1) with
      | some k => w'.getD k 0
      | none => max (w.getD b 0) 0
  else w

/-- orthority/pan_sharp.py:319-356 `get_weights`, before normalisation: `weights` with negative values
removed.  With one band `weights.squeeze()` has no dimension, and `tuple(weights.round(4).tolist())` in the
warning raises `TypeError` (line 331). -/
def rawWeights (ls : List (List K) → List K → List K) (n : ℕ) (cov : ℕ → ℕ → K) (weights : Option (List K)) :
    Res (List K) :=
  let clip (w : List K) := if w.any (fun x => decide (x < 0)) then w.map (max · 0) else w
  match weights with
  | some w => .ok (clip w)
  | none =>
    let w := lsWeights ls cov (List.range' 1 n)
    if w.any (fun x => decide (x < 0)) then
      if n = 1 then .error .typeError else .ok (clip (reestimate ls n cov w))
    else .ok (clip w)

/-- orthority/pan_sharp.py:319-356 `get_weights`: normalise (line 356). -/
def getWeights (ls : List (List K) → List K → List K) (n : ℕ) (cov : ℕ → ℕ → K) (weights : Option (List K)) :
    Res (List (Fl K)) :=
  match rawWeights ls n cov weights with
  | .error e => .error e
  | .ok w => .ok (w.map fun x => .val x / .val w.sum)

end Params

section Coeffs
variable {R : Type} [Add R] [Sub R] [Mul R] [Zero R]

/-- Sum of an array. -/
def rsum (l : List R) : R := l.foldr (· + ·) 0

/-- `x.dot(y)` of two vectors of length `n`. -/
def rdot (n : ℕ) (x y : ℕ → R) : R := rsum ((List.range n).map fun i => x i * y i)

/-- Forward transform of one pixel up to band `b`, orthority/pan_sharp.py:443-450: `gs_array[: b + 1]`. -/
def gsForward (n : ℕ) (ms means : ℕ → R) (φ : ℕ → ℕ → R) (w : ℕ → R) : ℕ → List R
  | 0 => [rdot n w ms]
  | b + 1 =>
    let gs := gsForward n ms means φ w b
    gs ++ [ms b - means b - rdot (b + 1) (φ b) (fun l => gs.getD l 0)]

/-- Reverse transform of one pixel, orthority/pan_sharp.py:468-471, band `b` (from 0). -/
def gsReverse (gs : List R) (means : ℕ → R) (φ : ℕ → ℕ → R) (b : ℕ) : R :=
  gs.getD (b + 1) 0 + means b + rdot (b + 1) (φ b) (fun l => gs.getD l 0)

/-- Pan-sharpening parameters, the dictionary at orthority/pan_sharp.py:416.  `means` is for pan and MS. -/
structure Params (R : Type) where
  means : ℕ → R
  φ : ℕ → ℕ → R
  w : ℕ → R
  gain : R
  bias : R

/-- orthority/pan_sharp.py:418-478 `_process_tile_array` for one pixel: band `b` of the result. -/
def sharpen (n : ℕ) (p : Params R) (pan : R) (ms : ℕ → R) (b : ℕ) : R :=
  let gs := gsForward n ms (fun i => p.means (i + 1)) p.φ p.w n
  let gs := gs.set 0 (p.gain * pan + p.bias)
  gsReverse gs (fun i => p.means (i + 1)) p.φ b

end Coeffs

section GramSchmidt
variable {K : Type} [Field K] [DecidableEq K]

instance : Zero (Fl K) := ⟨.val 0⟩

/-- orthority/pan_sharp.py:373-377: one Gram-Schmidt coefficient, for row `al` of `a` and band `k` (from 0).
`np.any(a[l] != 0)` is true when there is a NaN. -/
def gsCoeff (n : ℕ) (cov : ℕ → ℕ → K) (al : ℕ → Fl K) (k : ℕ) : Fl K :=
  let num := rdot n al (fun j => .val (cov k j))
  let den := rsum ((List.range n).flatMap fun i => (List.range n).map fun j => al i * al j * .val (cov i j))
  if (List.range n).any (fun j => decide (al j ≠ 0)) then num / den else 0

/-- Rows `a[0], ..., a[k]`, orthority/pan_sharp.py:362-377.  `cov` is for the MS bands, from 0. -/
def gsRows (n : ℕ) (cov : ℕ → ℕ → K) (w : ℕ → Fl K) : ℕ → List (ℕ → Fl K)
  | 0 => [w]
  | k + 1 =>
    let a := gsRows n cov w k
    a ++ [fun j => .val (if j = k then 1 else 0) -
      rdot (k + 1) (fun l => gsCoeff n cov (a.getD l 0) k) (fun l => a.getD l 0 j)]

/-- orthority/pan_sharp.py:358-379 `get_gs_coeffs`: `coeffs[k][l]`. -/
def gsCoeffs (n : ℕ) (cov : ℕ → ℕ → K) (w : ℕ → Fl K) (k l : ℕ) : Fl K :=
  gsCoeff n cov ((gsRows n cov w k).getD l 0) k

end GramSchmidt

section Norm

/-- orthority/pan_sharp.py:381-403 `get_pan_norm`: gain and bias. -/
noncomputable def panNorm (n : ℕ) (means : ℕ → ℝ) (cov : ℕ → ℕ → ℝ) (w : ℕ → Fl ℝ) : Fl ℝ × Fl ℝ :=
  let panMean : Fl ℝ := .val (means 0)
  let panStd : Fl ℝ := .val (Real.sqrt (cov 0 0))
  let simMean := rdot n w (fun b => .val (means (b + 1)))
  let simVar := rsum ((List.range n).flatMap fun i => (List.range n).map fun j =>
    w i * w j * .val (cov (i + 1) (j + 1)))
  let simStd := match simVar with
    | .val x => if 0 ≤ x then .val (Real.sqrt x) else .nan
    | .nan => .nan
  let gain := simStd / panStd
  (gain, simMean - gain * panMean)

/-- orthority/pan_sharp.py:405-416: parameters for the normalised weights `wl`. -/
noncomputable def mkParams (n : ℕ) (means : ℕ → ℝ) (cov : ℕ → ℕ → ℝ) (wl : List (Fl ℝ)) : Params (Fl ℝ) :=
  let w := fun b => wl.getD b 0
  let gb := panNorm n means cov w
  { means := fun i => .val (means i), φ := gsCoeffs n (fun i j => cov (i + 1) (j + 1)) w, w := w,
    gain := gb.1, bias := gb.2 }

/-- orthority/pan_sharp.py:311-416 `_get_params`, for finite means and covariances. -/
noncomputable def getParams (ls : List (List ℝ) → List ℝ → List ℝ) (n : ℕ) (means : ℕ → ℝ) (cov : ℕ → ℕ → ℝ)
    (weights : Option (List ℝ)) : Res (Params (Fl ℝ)) :=
  match getWeights ls n cov weights with
  | .error e => .error e
  | .ok wl => .ok (mkParams n means cov wl)

end Norm

end Verif.PanSharp
